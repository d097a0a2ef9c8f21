D={2:dict(V='Vector2',P='Point2',T='Transform2',M='Matrix3x3',aff='![0, 0, 1]',last='2',k=3,c='xy'),3:dict(V='Vector3',P='Point3',T='Transform3',M='Matrix4x4',aff='![0, 0, 0, 1]',last='3',k=4,c='xyz')}
out='''import Verif.Props.FloatPivot
import Verif.Props.FloatPlaneEx
import Verif.Props.FloatChain2
/-!
# C111: scaling about a pivot in floating point, concrete cases, and a pivot that the composed transform moves

(Generated by tools/gen.)
-/

open Classical

namespace VecMath
open Scalar IEEE

/-- `3 (2^23 + 1)`, `- 3 (2^23 + 1) + (2^23 + 1)` and what they are rounded to. -/
theorem rnd_three : Exactly ((int32 3 : F32) * int32 8388609) ((25165828 : ℤ) : ℝ) := by
  refine exec_mul (x := ((3 : ℤ) : ℝ)) (y := ((8388609 : ℤ) : ℝ)) exactly_int exactly_int ?_ (big32 (by norm_num [_root_.abs]))
  have := Fmt.rnd_lit_even binary32 (x := ((3 : ℤ) : ℝ) * ((8388609 : ℤ) : ℝ)) 24 1 12582914 (by decide) (by decide) (by norm_num) (by norm_num) (by norm_num) (by norm_num)
  exact this.trans (by norm_num)
theorem rnd_three' : Exactly ((int32 3 : F32) * -int32 8388609) ((-25165828 : ℤ) : ℝ) := by
  have h : num ((int32 3 : F32) * -int32 8388609) = num (-((int32 3 : F32) * int32 8388609)) := (same_mul_neg _ _).num
  have e := int_neg32 rnd_three
  have f := finite_of_num h e.1
  exact ⟨f, (real_of_num f e.1 h).trans e.2⟩
theorem rnd_off : Exactly ((int32 3 : F32) * -int32 8388609 + int32 8388609) ((-16777220 : ℤ) : ℝ) := by
  refine exec_add (x := ((-25165828 : ℤ) : ℝ)) (y := ((8388609 : ℤ) : ℝ)) rnd_three' exactly_int ?_ (big32 (by norm_num [_root_.abs]))
  have := Fmt.rnd_lit_even binary32 (x := ((16777219 : ℤ) : ℝ)) 24 1 8388610 (by decide) (by decide) (by norm_num) (by norm_num) (by norm_num) (by norm_num)
  rw [show ((-25165828 : ℤ) : ℝ) + ((8388609 : ℤ) : ℝ) = -((16777219 : ℤ) : ℝ) by norm_num, Fmt.rnd_neg]
  exact (congrArg Neg.neg this).trans (by norm_num)
theorem rnd_moved : Exactly ((int32 3 : F32) * int32 8388609 + ((int32 3 : F32) * -int32 8388609 + int32 8388609)) ((8388608 : ℤ) : ℝ) := by
  exact int_add32' rnd_three rnd_off (by norm_num)
theorem not_beq_exact {x y : F32} {a b : ℤ} (hx : Exactly x a) (hy : Exactly y b) (h : a ≠ b) : (x == y) = false := by
  rw [Bool.eq_false_iff, Ne, obeq_real hx.1 hy.1, hx.2, hy.2]; exact_mod_cast h
'''
for n in (2,3):
    d=D[n]; V,P,T,M,k,aff,last,c=d['V'],d['P'],d['T'],d['M'],d['k'],d['aff'],d['last'],d['c']
    w=f'{n}D'
    ss=' '.join('s'+x for x in c); hs=' '.join(f'(hs{x} : IsFinite s{x})' for x in c)
    ho=' '.join(f'(ho{x} : IsFinite (s{x} * -c.{x} + c.{x}))' for x in c)
    img=' '.join(f'(s{x} * p.{x} + (s{x} * -c.{x} + c.{x}))' for x in c)
    ob=lambda l:'⟨'+', '.join(l)+'⟩'
    gs=[f'g{i}' for i in range(n)]; ps=[f'p{i}' for i in range(n)]
    pr=lambda h,i:h+('.2'*i+('.1' if i<n-1 else ''))
    three=' '.join(['(int32 3)']*n)
    cp='⟨'+', '.join(['int32 8388609']+['int32 0']*(n-1))+'⟩'
    allf=lambda s:'⟨'+', '.join([s]*n)+'⟩'
    neg=lambda i: f'(s{c[i]} * -c.{c[i]})'
    zeros=' '.join('(by exact zo.1)' for _ in range(n-1))
    zc='int_add32\' (int_mul32 (x := int32 3) (a := 3) exactly_int (int_neg32 (x := int32 0) (a := 0) exactly_int) (by norm_num)) (y := int32 0) (b := 0) exactly_int (by norm_num)'
    fins='\n'.join('  · exact finite_of_num (num_of_beq '+'h'+'.2'*q+('.1' if q<k*k-1 else '')+') '+('f3' if i==j and i<n else 'o' if i==j else ('fo' if i==0 else 'fz') if j==n else 'z') for q,(i,j) in enumerate((i,j) for i in range(k) for j in range(k)))
    entpf='\n'.join(f"  · refine beq_of_num' (b := {e}) ?_ (IsFinite.not_nan (by assumption)); mat_simp [v0]; "+'; '.join(f'try generalize s{x} * -c.{x} = o{x} at *' for x in c)+f"; num_simp [{', '.join(f'f{i}' for i in range(n))}, {', '.join(gs)}, {', '.join(f'n{i}' for i in range(n))}, {', '.join('hs'+x for x in c)}]" for e in [('s'+c[i] if i==j and i<n else 'one' if i==j else f's{c[i]} * -c.{c[i]} + c.{c[i]}' if j==n else 'zero') for i in range(k) for j in range(k)])
    ents=', '.join(('s'+c[i] if i==j and i<n else 'one' if i==j else f's{c[i]} * -c.{c[i]} + c.{c[i]}' if j==n else 'zero') for i in range(k) for j in range(k))
    out+=f'''/-! ## Dimension {n} -/
section
variable {{S : Type}} [Scalar S] [IEEE S]
/-- **C111** ({w}): scaling about a pivot, composed into one transform: the offset `s * -c + c` is rounded before it is added. -/
theorem C111_scale{n} ({ss} : S) {hs} (c p : {P} S) (hc : AllFinite c) (hp : AllFinite p) {ho} :
    (Transform.transform (({T}.scale {ss}).about c) p == {P}.new {img}) = true := by
  show ({M}.translate ({V}.fromPoint c) * ({M}.scale {ss} * {M}.translate (-({V}.fromPoint c))) * p == _) = true
  have v0 : {' ∧ '.join(f'({V}.fromPoint c).{x} = c.{x} ∧ (-({V}.fromPoint c)).{x} = -c.{x}' for x in c)} := {'⟨'+', '.join('rfl, rfl' for _ in c)+'⟩'}
  rw [{P}.allFinite] at hc hp
  obtain {ob(gs)} := hc
  obtain {ob(ps)} := hp
{chr(10).join(f'  have n{i} := finite_neg.2 g{i}' for i in range(n))}
{chr(10).join(f'  have f{i} := (finite_of_add ho{x}).1' for i,x in enumerate(c))}
  rw [{P}.beq_iff]
  refine {ob(['?_']*n)} <;> refine beq_of_num' ?_ (nan_add_prod (by assumption) (by assumption) (by assumption)) <;>
    mat_simp [{P}.new, v0] <;> {' <;> '.join(f'generalize s{x} * -c.{x} = o{x} at *' for x in c)} <;> refine num_div_of_one ?_ ?_ <;> num_simp [{', '.join(f'f{i}' for i in range(n))}, {', '.join(gs+ps)}, {', '.join(f'n{i}' for i in range(n))}, {', '.join('hs'+x for x in c)}]
/-- The composed matrix of a scaling about a pivot. -/
theorem about_scale_forward{n} ({ss} : S) {hs} (c : {P} S) (hc : AllFinite c) {ho} :
    ((({T}.scale {ss}).about c).forward == ({M}.mk #v[{ents}] : {M} S)) = true := by
  show ({M}.translate ({V}.fromPoint c) * ({M}.scale {ss} * {M}.translate (-({V}.fromPoint c))) == _) = true
  have v0 : {' ∧ '.join(f'({V}.fromPoint c).{x} = c.{x} ∧ (-({V}.fromPoint c)).{x} = -c.{x}' for x in c)} := {'⟨'+', '.join('rfl, rfl' for _ in c)+'⟩'}
  rw [{P}.allFinite] at hc
  obtain {ob(gs)} := hc
{chr(10).join(f'  have n{i} := finite_neg.2 g{i}' for i in range(n))}
{chr(10).join(f'  have f{i} := (finite_of_add ho{x}).1' for i,x in enumerate(c))}
  have z := finite_zero (S := S)
  have o := finite_one (S := S)
  rw [{M}.beq_iff, forall_lt_{k*k}]
  refine {ob(['?_']*(k*k))}
{entpf}
end
/-- The pivot `2^23 + 1` on the first axis. -/
noncomputable def hinge{n} : {P} F32 := {cp}
theorem finite_hinge{n} : AllFinite hinge{n} := by rw [{P}.allFinite]; exact {allf('exactly_int.1') if False else ob(['(exactly_int (n := 8388609) (h := by norm_num)).1']+['(exactly_int (n := 0) (h := by norm_num)).1']*(n-1))}
theorem three_origin{n} : (Transform.transform ({T}.scale {three}) ({P}.origin : {P} F32) == ({P}.origin : {P} F32)) = true := by
  have fo : AllFinite ({P}.origin : {P} F32) := by rw [{P}.allFinite]; exact {allf('finite_zero')}
  have fv : AllFinite ({V}.zero : {V} F32) := by rw [{V}.allFinite]; exact {allf('finite_zero')}
  have f3 : IsFinite (int32 3 : F32) := (exactly_int (n := 3) (h := by norm_num)).1
  have := {P}.beq_iff.1 (C46_float_scale{n} {three} ({V}.zero : {V} F32) ({P}.origin : {P} F32) {' '.join(['f3']*n)} fo fv).1
  have go : ∀ {{x : F32}}, (x == int32 3 * zero) = true → (x == zero) = true := fun h =>
    beq_of_num ((num_of_beq h).trans (IEEE.num_mul_zero f3)) (beq_iff.1 h).1
  exact {P}.beq_iff.2 {ob([f'go {pr("this",i)}' for i in range(n)])}
theorem finite_three{n} : AllFinite ({T}.scale {three} : {T} F32).forward := by
  rw [{M}.allFinite, forall_lt_{k*k}]
  have f3 : IsFinite (int32 3 : F32) := (exactly_int (n := 3) (h := by norm_num)).1
  have z := finite_zero (S := F32)
  have o := finite_one (S := F32)
  exact {'⟨f3, z, z, z, f3, z, z, z, o⟩' if n==2 else '⟨f3, z, z, z, z, f3, z, z, z, z, f3, z, z, z, z, o⟩'}
theorem affine_three{n} : ({T}.scale {three} : {T} F32).forward.toReal {last} = {aff} := by
  funext j; fin_cases j <;> first | exact real_zero (S := F32) | exact real_one (S := F32)
/-- **C111** ({w}, finding): composed into one transform, scaling by 3 about the point `(2^23 + 1, 0, ...)` in `f32` does not leave that point in place: its
first coordinate becomes `2^23`. Applied one after the other, the same three transforms do leave it in place. -/
theorem C111_pivot_moves{n} :
    (Transform.transform (({T}.scale {three}).about hinge{n}) hinge{n} == hinge{n}) = false ∧
    (Transform.transform (({T}.scale {three}).about hinge{n}) hinge{n} : {P} F32).x.beq (int32 8388608) = true ∧
    ({T}.oneByOne [{T}.translate (-({V}.fromPoint hinge{n})), {T}.scale {three}, {T}.translate ({V}.fromPoint hinge{n})] hinge{n} == hinge{n}) = true := by
  have f3 : IsFinite (int32 3 : F32) := (exactly_int (n := 3) (h := by norm_num)).1
  have zo : Exactly ((int32 3 : F32) * -int32 0 + int32 0) ((0 : ℤ) : ℝ) := {zc}
  have h := {P}.beq_iff.1 (C111_scale{n} {three} {' '.join(['f3']*n)} hinge{n} hinge{n} finite_hinge{n} finite_hinge{n} rnd_off.1 {zeros})
  have m : Exactly ((int32 3 : F32) * hinge{n}.x + (int32 3 * -hinge{n}.x + hinge{n}.x)) ((8388608 : ℤ) : ℝ) := rnd_moved
  have e := num_of_beq h.1
  have fx := finite_of_num e m.1
  have mx : Exactly (Transform.transform (({T}.scale {three}).about hinge{n}) hinge{n} : {P} F32).x ((8388608 : ℤ) : ℝ) := ⟨fx, (real_of_num fx m.1 e).trans m.2⟩
  refine ⟨?_, ?_, (C111_pivot{n} _ finite_three{n} affine_three{n} hinge{n} finite_hinge{n}).2 three_origin{n}⟩
  · rw [Bool.eq_false_iff]
    intro hb
    have := ({P}.beq_iff.1 hb).1
    rw [not_beq_exact mx (show Exactly hinge{n}.x ((8388609 : ℤ) : ℝ) from exactly_int (h := by norm_num)) (by norm_num)] at this
    cases this
  · exact (obeq_real mx.1 (exactly_int (n := 8388608) (h := by norm_num)).1).2 (mx.2.trans (exactly_int (n := 8388608) (h := by norm_num)).2.symm)
theorem finite_about{n} : AllFinite (({T}.scale {three}).about hinge{n}).forward := by
  have f3 : IsFinite (int32 3 : F32) := (exactly_int (n := 3) (h := by norm_num)).1
  have zo : Exactly ((int32 3 : F32) * -int32 0 + int32 0) ((0 : ℤ) : ℝ) := {zc}
  have z := finite_zero (S := F32)
  have o := finite_one (S := F32)
  have h := about_scale_forward{n} {three} {' '.join(['f3']*n)} hinge{n} finite_hinge{n} rnd_off.1 {zeros}
  rw [{M}.beq_iff, forall_lt_{k*k}] at h
  rw [{M}.allFinite, forall_lt_{k*k}]
  have fz := zo.1
  have fo := rnd_off.1
  refine {ob(['?_']*(k*k))}
{fins}
theorem finite_about_image{n} : AllFinite (Transform.transform (({T}.scale {three}).about hinge{n}) hinge{n} : {P} F32) := by
  have f3 : IsFinite (int32 3 : F32) := (exactly_int (n := 3) (h := by norm_num)).1
  have zo : Exactly ((int32 3 : F32) * -int32 0 + int32 0) ((0 : ℤ) : ℝ) := {zc}
  have h := {P}.beq_iff.1 (C111_scale{n} {three} {' '.join(['f3']*n)} hinge{n} hinge{n} finite_hinge{n} finite_hinge{n} rnd_off.1 {zeros})
  have z1 : Exactly ((int32 3 : F32) * int32 0 + ((int32 3 : F32) * -int32 0 + int32 0)) ((0 : ℤ) : ℝ) :=
    int_add32' (int_mul32 (x := int32 3) (a := 3) (y := int32 0) (b := 0) exactly_int exactly_int (by norm_num)) zo (by norm_num)
  rw [{P}.allFinite]
  exact {ob(['finite_of_num (num_of_beq h.1) rnd_moved.1']+[f'finite_of_num (num_of_beq {pr("h",i)}) z1.1' for i in range(1,n)])}
example := C111_about{n} _ affine_three{n} hinge{n} hinge{n} finite_about{n} finite_about_image{n}
example := C111_about_steps{n} _ finite_three{n} affine_three{n} hinge{n} hinge{n} finite_hinge{n} (by
  have h := {P}.beq_iff.1 C111_pivot_moves{n}.2.2
  have g := {P}.allFinite.1 finite_hinge{n}
  rw [{P}.allFinite]
  exact {ob(['finite_of_num (num_of_beq '+pr('h',i)+') '+pr('g',i) for i in range(n)])})
example := C111_one_by_one{n} [{T}.translate (-({V}.fromPoint hinge{n})), {T}.scale {three}, {T}.translate ({V}.fromPoint hinge{n})]
'''
    out=out[:out.rindex('example := C111_one')]
out+='''end VecMath
'''
out=out.replace("exact zo.1","exact zo.1")
out=out.replace(" : Point2 F32).x.beq (int32 8388608) = true"," : Point2 F32).x == int32 8388608) = true").replace(" : Point3 F32).x.beq (int32 8388608) = true"," : Point3 F32).x == int32 8388608) = true")
import re
out=re.sub(r"\(Transform\.transform (\(\(Transform\d\.scale [^)]*\)[^=\n]*?\)\.x == int32 8388608\))",r"((Transform.transform \1",out)
open('/tmp/d/FloatPivotEx.lean','w').write(out)

import sys
head="""import Verif.Props.RealPersp
import Verif.Props.FloatPersp
import Verif.Props.FloatBallEx
/-! # C120: the hypotheses are met

(Generated by tools/gen/persp_ex.py.) -/

namespace VecMath
open Scalar IEEE
"""
def gen(N):
    M={2:"Matrix3x3",3:"Matrix4x4"}[N]; P=f"Point{N}"; V=f"Vector{N}"; R=f"Ray{N}"; B=f"BoundingBox{N}"; T=f"Transform{N}"
    K=N+1; nc=2**N
    rows=[[1 if i==j else 0 for j in range(K)] for i in range(K)]
    rows[N-1]=[0]*N+[1]; rows[N]=[0]*K; rows[N][N-1]=1
    ent=", ".join(str(x) for r in rows for x in r)
    ident="!["+", ".join(f"Ideal.of {x}" for r in rows for x in r)+"]"
    pt=lambda *c: "⟨"+", ".join(f".of {x}" if x>=0 else f".of ({x})" for x in c)+"⟩"
    z=[0]*(N-1)
    zz=", ".join(["trivial"]*N)
    lastp={2:"p.y",3:"p.z"}[N]
    mat="!!["+"; ".join(", ".join(str(x) for x in r) for r in rows)+"]"
    fl=lambda s:"⟨"+", ".join(f"int32 {x}" if x>=0 else f"int32 ({x})" for x in s)+"⟩"
    # rowAt exactness in floats
    p=[1,2,4][:N] if N==3 else [1,4]
    bh=[0]*(N-1)+[-2]
    def rowproof():
        t="(int_mul32 exi exi (by norm_num))"
        s=t
        for _ in range(N-1): s=f"(int_add32' {s} {t} (by norm_num))"
        return f"int_add32' {s} exi (by norm_num)"
    def row(i,p): return sum(a*b for a,b in zip(rows[i],p+[1]))
    o=f"""
/-! ### Dimension {N}: dividing by the last coordinate -/
/-- `{ {2:'(x, y) -> (x / y, 1 / y)',3:'(x, y, z) -> (x / z, y / z, 1 / z)'}[N] }` -/
noncomputable def eye{N} : {M} Ideal := ⟨(#v[{ent}] : Vector ℝ {K*K}).map Ideal.of⟩
theorem eye{N}_fin : AllFinite eye{N} := by
  rw [{M}.allFinite]; intro i hi; rw [eye{N}, Vector.getElem_map]; exact Ideal.finite_of _
theorem eye{N}_real : eye{N}.toReal = {mat} := by
  rw [{M}.toReal_eq]; simp [eye{N}]
theorem eye{N}_weight (p : {P} Ideal) : eye{N}.weight p = real {lastp} := by
  rw [{M}.weight, eye{N}_real]
  simp [Matrix.mulVec, dotProduct, Fin.sum_univ_succ, {P}.hom, Fin.last]
noncomputable def look{N} : {R} Ideal := ⟨{pt(*z,1)}, {pt(1,*([0]*(N-2)),1)}⟩
theorem look{N}_fin : AllFinite look{N} := {R}.allFinite.2 ⟨{P}.allFinite.2 ⟨{zz}⟩, {V}.allFinite.2 ⟨{zz}⟩⟩
theorem look{N}_weight {{s : Ideal}} (hs : IsFinite s) : eye{N}.weight (look{N}.at s) = 1 + real s := by
  rw [eye{N}_weight]
  have := congrFun ({R}.toReal_at look{N}_fin hs) {N-1}
  simpa [{P}.toReal, {V}.toReal, look{N}] using this
theorem look{N}_zero : eye{N}.weight (look{N}.at zero) = 1 := by rw [look{N}_weight finite_zero, real_zero, add_zero]
theorem look{N}_one : eye{N}.weight (look{N}.at one) = 2 := by rw [look{N}_weight finite_one, real_one]; norm_num
theorem look{N}_of (x : ℝ) : eye{N}.weight (look{N}.at (.of x)) = 1 + x := look{N}_weight (Ideal.finite_of x)
/-- the point at 3 is at 3/2 of the image line -/
example := C120_line{N} eye{N} eye{N}_fin look{N} look{N}_fin (.of 3) (.of (3 / 2)) (Ideal.finite_of _) (Ideal.finite_of _)
  (by rw [look{N}_zero]; norm_num) (by rw [look{N}_one]; norm_num) (by rw [look{N}_of]; norm_num)
  (by rw [look{N}_one, look{N}_of, Ideal.real_of, Ideal.real_of]; norm_num)
example := C120_segment{N} eye{N} eye{N}_fin look{N} look{N}_fin (by rw [look{N}_zero]; norm_num) (by rw [look{N}_one]; norm_num)
example : ((Ideal.of (3 / 2)) <? (Ideal.of (5 / 3))) = ((Ideal.of 3) <? (Ideal.of 5)) :=
  C120_order{N} eye{N} look{N} look{N}_fin (.of 3) (.of 5) (.of (3 / 2)) (.of (5 / 3)) (Ideal.finite_of _) (Ideal.finite_of _)
  (Ideal.finite_of _) (Ideal.finite_of _) (by rw [look{N}_zero]; norm_num) (by rw [look{N}_one]; norm_num) (by rw [look{N}_of]; norm_num)
  (by rw [look{N}_of]; norm_num) (by rw [look{N}_one, look{N}_of, Ideal.real_of, Ideal.real_of]; norm_num)
  (by rw [look{N}_one, look{N}_of, Ideal.real_of, Ideal.real_of]; norm_num)
example := C120_scale{N} eye{N} eye{N}_fin {pt(*([5]*N))} ({P}.allFinite.2 ⟨{zz}⟩) (.of (-2)) (Ideal.finite_of _)
  (by rw [Ideal.real_of]; norm_num) (by rw [eye{N}_weight]; change real (Ideal.of 5) ≠ 0; rw [Ideal.real_of]; norm_num)
/-- As `try_from` gives it: the matrix is its own inverse. -/
noncomputable def eyeT{N} : {T} Ideal := {T}.new eye{N} eye{N}
theorem eyeT{N}_fin : AllFinite eyeT{N} := {T}.allFinite.2 ⟨eye{N}_fin, eye{N}_fin⟩
theorem eyeT{N}_paired : eyeT{N}.Paired := by
  rw [{T}.paired_iff eye{N}_fin eye{N}_fin]
  change eye{N}.toReal * eye{N}.toReal = 1
  rw [eye{N}_real]
  ext i j
  fin_cases i <;> fin_cases j <;> simp [Matrix.mul_apply, Fin.sum_univ_succ]
theorem eyeT{N}_not_affine : ¬ eyeT{N}.forward.Affine := by
  intro h
  have := h (Fin.last {N})
  change eye{N}.toReal (Fin.last {N}) (Fin.last {N}) = _ at this
  rw [eye{N}_real] at this
  simp [Fin.last] at this
noncomputable def slab{N} : {B} Ideal := ⟨{pt(*z,1)}, {pt(*([1]*(N-1)),2)}⟩
theorem slab{N}_fin : AllFinite slab{N} := {B}.allFinite.2 ⟨{P}.allFinite.2 ⟨{zz}⟩, {P}.allFinite.2 ⟨{zz}⟩⟩
theorem slab{N}_le : LeAll slab{N}.min slab{N}.max := by
  rw [{P}.leAll]
  have k : ∀ a b : ℝ, a ≤ b → (Ideal.of a ≤? Ideal.of b) = true := fun a b h => by
    rw [Ideal.le_real (Ideal.finite_of _) (Ideal.finite_of _), Ideal.real_of, Ideal.real_of]; exact h
  exact ⟨{", ".join(["k _ _ (by norm_num)"]*N)}⟩
/-- the box around the corners of a box in front of the eye -/
example (build : Build) := C120_box{N} eyeT{N} eye{N}_fin build slab{N} slab{N}_fin slab{N}_le (fun k hk c hc => by
  change 0 < eye{N}.weight c
  have hi := corner_inside{N} build slab{N} slab{N}_le hk hc
  have fc := {B}.fin_inside slab{N}_fin hi
  rw [{B}.inside_real slab{N}_fin fc] at hi
  have h1 := (hi {N-1}).1
  rw [eye{N}_weight]
  have e : slab{N}.min.toReal {N-1} = 1 := by simp [{P}.toReal, slab{N}]
  rw [e] at h1
  change 1 ≤ real {lastp.replace('p.','c.')} at h1
  linarith)
/-- **C120**, the failure: `try_from` accepts the perspective matrix, and there is a ray, and a point on it with positive weight, that
the transformed ray does not reach at that parameter. -/
theorem C120_ray_wrong{N} : eyeT{N}.Paired ∧ ∃ (r : {R} Ideal) (s : Ideal), AllFinite r ∧ IsFinite s ∧
    eyeT{N}.forward.weight r.origin ≠ 0 ∧ eyeT{N}.forward.weight (r.at s) ≠ 0 ∧
    ((Transform.transform eyeT{N} r : {R} Ideal).at s == (Transform.transform eyeT{N} (r.at s) : {P} Ideal)) = false := by
  refine ⟨eyeT{N}_paired, ?_⟩
  by_contra hc
  push Not at hc
  refine eyeT{N}_not_affine ((C120_ray_iff{N} eyeT{N} eyeT{N}_fin eyeT{N}_paired).1 fun r s hr hs h0 h1 => ?_)
  have := hc r s hr hs h0 h1
  simpa using this

noncomputable def eyeF{N} : {M} F32 := ⟨#v[{", ".join(f"int32 {x}" for r in rows for x in r)}]⟩
noncomputable def ahead{N} : {P} F32 := {fl(p)}
noncomputable def behind{N} : {P} F32 := {fl(bh)}
"""
    for nm,q in (("ahead",p),("behind",bh)):
        for i in range(K):
            o+=f"theorem {nm}{N}_{i} : Exactly (eyeF{N}.rowAt {i} {nm}{N}) (({row(i,q)} : ℤ) : ℝ) := ex_int ({rowproof()}) (by norm_num)\n"
    o+=f"""/-- a point in front of the eye, inside the clip volume -/
example : clipBox{N}.isInside (eyeF{N} * ahead{N}) = true :=
  (C120_clip{N} eyeF{N} ahead{N} ahead{N}_{N}.1 (lt_exact int_zero32 ahead{N}_{N} (by norm_num))).2 (fun i => by
    fin_cases i
"""
    for i in range(N):
        o+=f"    · exact ⟨le_exact (int_neg32 ahead{N}_{N}) ahead{N}_{i} (by norm_num), le_exact ahead{N}_{i} ahead{N}_{N} (by norm_num)⟩\n"
    o=o.rstrip()+")\n"
    o+=f"""/-- **C120**, the failure: a point behind the eye (weight -2) passes the test of the image against the clip box. -/
theorem C120_behind_seen{N} : (eyeF{N}.rowAt {N} behind{N} <? zero) = true ∧ clipBox{N}.isInside (eyeF{N} * behind{N}) = true := by
  refine ⟨lt_exact behind{N}_{N} int_zero32 (by norm_num), ?_⟩
  refine (C120_behind{N} eyeF{N} behind{N} behind{N}_{N}.1 (lt_exact behind{N}_{N} int_zero32 (by norm_num))).2 (fun i => ?_)
  fin_cases i
"""
    for i in range(N):
        o+=f"  · exact ⟨le_exact behind{N}_{i} (int_neg32 behind{N}_{N}) (by norm_num), le_exact behind{N}_{N} behind{N}_{i} (by norm_num)⟩\n"
    o+=f"""theorem ahead{N}_fin (i : Fin {N}) : IsFinite (eyeF{N}.rowAt i.castSucc ahead{N} / eyeF{N}.rowAt {N} ahead{N}) := by
  have k : ∀ {{x : F32}} {{a : ℤ}}, Exactly x (a : ℝ) → |a| ≤ 4 → IsFinite (x / eyeF{N}.rowAt {N} ahead{N}) := by
    intro x a hx ha
    rw [(correct_div hx.1 ahead{N}_{N}.1 (by rw [ahead{N}_{N}.2]; norm_num)).1, hx.2, ahead{N}_{N}.2]
    refine big32' ?_
    have : |(a : ℝ)| ≤ 4 := by exact_mod_cast ha
    rw [abs_div]; norm_num; linarith
  fin_cases i
"""
    for i in range(N): o+=f"  · exact k ahead{N}_{i} (by norm_num)\n"
    o+=f"""theorem ahead{N}_nn : NoNaN (eyeF{N} * ahead{N}) := {P}.noNaN.2 ⟨{", ".join(f"(ahead{N}_fin {i}).not_nan" for i in range(N))}⟩
example : ((eyeF{N} * (-one : F32)) * ahead{N} == eyeF{N} * ahead{N}) = true :=
  C120_negate{N} eyeF{N} ahead{N} (by rw [ahead{N}_{N}.1.val, ahead{N}_{N}.2]; norm_num) ahead{N}_nn
"""
    lst={2:"ahead2_fin 0",3:"ahead3_fin 0"}[N]
    o+=f"""theorem ahead{N}_weight : (∑ j : Fin {N}, eyeF{N}.toReal {N} j.castSucc * ahead{N}.toReal j + eyeF{N}.toReal {N} {N}) = 4 ∧
    (∑ j : Fin {N}, |eyeF{N}.toReal {N} j.castSucc * ahead{N}.toReal j| + |eyeF{N}.toReal {N} {N}|) = 4 := by
  rw [Fin.sum_univ_{['','','two','three'][N]}, Fin.sum_univ_{['','','two','three'][N]}]
  change {" + ".join(f"real (int32 {rows[N][j]} : F32) * real (int32 {p[j]} : F32)" for j in range(N))} + real (int32 {rows[N][N]} : F32) = 4 ∧
    {" + ".join(f"|real (int32 {rows[N][j]} : F32) * real (int32 {p[j]} : F32)|" for j in range(N))} + |real (int32 {rows[N][N]} : F32)| = 4
  simp only [real_int32]
  norm_num
/-- the weight 4 is larger than its error bound -/
example := C120_error{N} eyeF{N} ahead{N} 0 ahead{N}_0.1 ahead{N}_{N}.1 (ahead{N}_fin 0) rfl rfl rfl rfl (by
  rw [ahead{N}_weight.1, ahead{N}_weight.2]
  have u : uro F32 ≤ 1 / 16 := by
    change (2 : ℝ) ^ (-(24 : ℤ)) ≤ 1 / 16
    norm_num
  have u0 := uro_pos (S := F32)
  have t : tiny F32 ≤ 1 / 16 := by
    change (2 : ℝ) ^ ((-149 : ℤ) - 1) ≤ 1 / 16
    norm_num
  have t0 := tiny_pos (S := F32)
  have p{K} : (1 + uro F32) ^ {K} ≤ (1 + 1 / 16) ^ {K} := pow_le_pow_left₀ (by linarith) (by linarith) _
  have p{N} : (1 + uro F32) ^ {N} ≤ (1 + 1 / 16) ^ {N} := pow_le_pow_left₀ (by linarith) (by linarith) _
  have q : (1 + uro F32) ^ {N} * ({N} * tiny F32) ≤ (1 + 1 / 16) ^ {N} * ({N} * (1 / 16)) := mul_le_mul p{N} (by linarith) (by positivity) (by positivity)
  norm_num at p{K} p{N} q ⊢
  linarith) rfl
"""
    return o
open(sys.argv[1],"w").write(head+gen(2)+gen(3)+"\nend VecMath\n")

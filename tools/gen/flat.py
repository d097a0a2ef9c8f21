M=["p","q","zero","u","r","s","zero","v","zero","zero","one","zero","zero","zero","zero","one"]
def sub(i,j):
    rows=[r for r in range(4) if r!=i]; cols=[c for c in range(4) if c!=j]
    return [[M[4*r+c] for c in cols] for r in rows]
val={(0,0):"s",(1,0):"-q",(2,0):"zero",(3,0):"-(u * s - q * v)",(0,1):"-r",(1,1):"p",(2,1):"zero",(3,1):"u * r - p * v",
(0,2):"zero",(1,2):"zero",(2,2):"p * s - q * r",(3,2):"zero",(0,3):"zero",(1,3):"zero",(2,3):"zero",(3,3):"p * s - q * r"}

H="(hp : IsFinite p) (hq : IsFinite q) (hu : IsFinite u) (hr : IsFinite r) (hs : IsFinite s) (hv : IsFinite v) (ps : IsFinite (p * s)) (qr : IsFinite (q * r)) (us : IsFinite (u * s)) (qv : IsFinite (q * v)) (ur : IsFinite (u * r)) (pv : IsFinite (p * v))"
out=["""import Verif.Props.FloatFlatMat
import Verif.Props.FloatInvAffine
/-! # C117: plane geometry in space – inverting affine matrices

The cofactors of the copy of an affine matrix of the plane are generated by `tools/gen/flat.py`. -/

open Classical

namespace VecMath
open Scalar IEEE Relator

section
variable {S : Type} [Scalar S] [IEEE S]
local notation "Z" => SameNumber (S := S) (T := S)

/-- An affine matrix of the plane, in space. -/
def flatK (p q u r s v : S) : Matrix4x4 S :=
  Matrix4x4.new #v[p, q, zero, u, r, s, zero, v, zero, zero, one, zero, zero, zero, zero, one]
theorem finite_num_mul {a b : S} (h : IsFinite (a * b)) : nmul (IEEE.A S) (nmul (IEEE.A S) (num a) (num b)) (.fin 0) = .fin 0 := by
  rw [← IEEE.num_mul, IEEE.nmul_zero h]
theorem nadd_neg_zero (a b : S) : nadd (IEEE.A S) (nadd (IEEE.A S) (num a) (nneg (num b))) (.fin 0) = nadd (IEEE.A S) (num a) (nneg (num b)) := by
  rw [← num_sub_neg, IEEE.nadd_zero]
theorem nadd_nneg_mul_zero (a b c d : S) : nadd (IEEE.A S) (nadd (IEEE.A S) (nmul (IEEE.A S) (num a) (num b)) (nneg (nmul (IEEE.A S) (num c) (num d)))) (.fin 0)
    = nadd (IEEE.A S) (nmul (IEEE.A S) (num a) (num b)) (nneg (nmul (IEEE.A S) (num c) (num d))) := by
  rw [← IEEE.num_mul, ← IEEE.num_mul, nadd_neg_zero]
theorem nmul_mul_one (a b : S) : nmul (IEEE.A S) (nmul (IEEE.A S) (num a) (num b)) (.fin 1) = nmul (IEEE.A S) (num a) (num b) := by
  rw [← IEEE.num_mul, IEEE.nmul_one]
theorem one_nmul_nadd (a b c d : S) : nmul (IEEE.A S) (.fin 1) (nadd (IEEE.A S) (nmul (IEEE.A S) (num a) (num b)) (nneg (nmul (IEEE.A S) (num c) (num d))))
    = nadd (IEEE.A S) (nmul (IEEE.A S) (num a) (num b)) (nneg (nmul (IEEE.A S) (num c) (num d))) := by
  rw [← IEEE.num_mul, ← IEEE.num_mul, ← num_sub_neg, IEEE.one_nmul]
theorem nneg_one_nmul_nadd (a b c d : S) : nmul (IEEE.A S) (nneg (.fin 1)) (nadd (IEEE.A S) (nmul (IEEE.A S) (num a) (num b)) (nneg (nmul (IEEE.A S) (num c) (num d))))
    = nneg (nadd (IEEE.A S) (nmul (IEEE.A S) (num a) (num b)) (nneg (nmul (IEEE.A S) (num c) (num d)))) := by
  rw [← IEEE.num_mul, ← IEEE.num_mul, ← num_sub_neg, nneg_one_mul]
theorem zero_nadd_mul_nneg (a b c d : S) : nadd (IEEE.A S) (nadd (IEEE.A S) (.fin 0) (nmul (IEEE.A S) (num a) (num b))) (nneg (nmul (IEEE.A S) (num c) (num d)))
    = nadd (IEEE.A S) (nmul (IEEE.A S) (num a) (num b)) (nneg (nmul (IEEE.A S) (num c) (num d))) := by
  rw [← IEEE.num_mul, ← IEEE.num_mul, IEEE.zero_nadd]
macro "flat_simp" "[" hs:Lean.Parser.Tactic.simpLemma,* "]" : tactic =>
  `(tactic| neg_simp [finite_num_mul, nadd_neg_zero, nadd_nneg_mul_zero, nmul_mul_one, one_nmul_nadd, nneg_one_nmul_nadd, zero_nadd_mul_nneg, $hs,*])

variable {p q u r s v : S}
"""]
for (i,j),v in val.items():
    t=sub(i,j)
    sg="one" if (i+j)%2==0 else "-one"
    e=f"{t[0][0]} * {t[1][1]} * {t[2][2]} + {t[0][1]} * {t[1][2]} * {t[2][0]} + {t[0][2]} * {t[1][0]} * {t[2][1]} - {t[0][0]} * {t[1][2]} * {t[2][1]} - {t[0][1]} * {t[1][0]} * {t[2][2]} - {t[0][2]} * {t[1][1]} * {t[2][0]}"
    hs=[]; hy=[]
    for x in "pqursv":
        if f" {x} " in " "+e.replace("(","( ")+" ":
            hs.append("h"+x)
            hy.append(f"(h{x} : IsFinite {x})")
    for x,y in ["ps","qr","us","qv","ur","pv"]:
        if f"{x} * {y} * " in e:
            hs.append(x+y); hy.append(f"({x}{y} : IsFinite ({x} * {y}))")
    out.append(f"""theorem cof_flat{i}{j} {' '.join(hy)} :
    num ((flatK p q u r s v).cofactor {i} {j}) = num ({v} : S) := by
  show num ({sg} * ({e}) : S) = _
  flat_simp [{', '.join(hs)}]""")
out.append("end\n\nend VecMath")
open('FloatFlatInv.lean','w').write("\n".join(out)+"\n")

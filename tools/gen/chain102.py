p='/verif/lean/Verif/Props/FloatChain2.lean'
HEAD='''import Verif.Props.FloatMatrix
import Verif.Props.FloatBasis
import Verif.Lemmas.Symm
/-!
# Layer F: chains of translations and scalings (C102)

Generated by `tools/gen/chain102.py`. The entries of these products are sums of products with the literals 0 and 1, so
all of them but one are exact.
-/

namespace VecMath
set_option linter.unusedSimpArgs false
set_option linter.unusedVariables false
set_option linter.unusedSectionVars false
open Scalar IEEE

section
variable {S : Type} [Scalar S] [IEEE S]
theorem nan_add_prod {a b c : S} (ha : IsFinite a) (hb : IsFinite b) (hc : IsFinite c) : ¬ IsNaN (a * b + c) := by
  intro h
  exact isNaN_add_finite hc (isNaN_mul_finite ha hb) ((isNaN_iff_num).2 (((same_add_comm c (a * b)).num).trans (isNaN_iff_num.1 h)))
end
'''
def gen(n):
    D=f"Dimension{n}"; V=f"Vector{n}"; P=f"Point{n}"; M=f"Matrix{n+1}x{n+1}"; R=f"Ray{n}"; T=f"Transform{n}"
    ax="XYZ"[:n]; lo=ax.lower()
    k=n+1; N=k*k
    hs=", ".join(f"h{i}" for i in range(n)); gs=", ".join(f"g{i}" for i in range(n)); ps=", ".join(f"p{i}" for i in range(n))
    nh=", ".join(f"nh{i}" for i in range(n)); ng=", ".join(f"ng{i}" for i in range(n))
    ms=", ".join(f"m{i}" for i in range(N))
    q=lambda k:"⟨"+", ".join(["?_"]*k)+"⟩"
    L=f"forall_lt_{N}"
    sx=" ".join("s"+c for c in lo); tx=" ".join("t"+c for c in lo)
    fin=lambda x:" ".join(f"(h{x}{c} : IsFinite {x}{c})" for c in lo)
    finl=lambda x:", ".join(f"h{x}{c}" for c in lo)
    pj=lambda f: ", ".join(f"{P}.{f}_{c}" for c in lo)
    j=lambda f: ", ".join(f"{V}.{f}_{c}" for c in lo)
    negs="\n".join(f"  have nh{i} := finite_neg.2 h{i}" for i in range(n))
    negg="\n".join(f"  have ng{i} := finite_neg.2 g{i}" for i in range(n))
    def ent(i,u):
        r,c=divmod(i,k)
        return "(one : S)" if r==c else f"{u}.{lo[r]}" if c==n else "(zero : S)"
    return f'''/-! ## {n}D -/
section
variable {{S : Type}} [Scalar S] [IEEE S]
/-- **C102**, {n}D: `identity()` is a unit of `and_then` for finite transforms. -/
theorem C102_unit{n} (t : {T} S) (ht : AllFinite t.forward) (ht' : AllFinite t.inverse) :
    ({T}.identity.andThen t == t) = true ∧ (t.andThen {T}.identity == t) = true := by
  have a := C41_float_identity{n} t.forward ht
  have b := C41_float_identity{n} t.inverse ht'
  exact ⟨{T}.beq_iff.2 ⟨a.1, b.2⟩, {T}.beq_iff.2 ⟨a.2, b.1⟩⟩
/-- A matrix equal to a translation, after a further translation. -/
theorem translate_mul{n} (m m' : {M} S) (u v w : {V} S) (hu : AllFinite u) (hv : AllFinite v) (h : (m == {M}.translate u) = true)
    (h' : (m' == {M}.translate v) = true) 
    (hw : {" ∧ ".join(f"num w.{c} = num (u.{c} + v.{c})" for c in lo)}) : (m * m' == {M}.translate w) = true := by
  have nn : ∀ {{a b c : S}}, num a = num (b + c) → IsFinite b → IsFinite c → ¬ IsNaN a := by
    intro a b c h hb hc
    rw [isNaN_iff_num, h, ← isNaN_iff_num]
    exact isNaN_add_finite hb hc.not_nan
  obtain ⟨{", ".join(f"w{i}" for i in range(n))}⟩ := hw
  rw [{V}.allFinite] at hu hv
  obtain ⟨{hs}⟩ := hu
  obtain ⟨{gs}⟩ := hv
  rw [{M}.beq_iff, {L}] at h h' ⊢
  have tr : ∀ {{a b : S}}, (a == b) = true → num a = num b := fun h => num_of_beq h
  obtain ⟨{", ".join(f"a{i}" for i in range(N))}⟩ := h
  obtain ⟨{", ".join(f"b{i}" for i in range(N))}⟩ := h'
{chr(10).join(f"  replace a{i} : num m.m[{i}] = num {ent(i,'u')} := tr a{i}" for i in range(N))}
{chr(10).join(f"  replace b{i} : num m'.m[{i}] = num {ent(i,'v')} := tr b{i}" for i in range(N))}
  refine {q(N)} <;> refine beq_of_num' ?_ (by first | exact finite_one.not_nan | exact finite_zero.not_nan | exact nn (by assumption) (by assumption) (by assumption)) <;>
    mat_simp [{j("add")}] <;> num_simp [{", ".join(f"w{i}" for i in range(n))}, {", ".join(f"a{i}, b{i}" for i in range(N))}, {hs}, {gs}]
  all_goals exact (num_add _ _).symm.trans ((same_add_comm _ _).num.trans (num_add _ _))
/-- A transform equal to a translation, followed by a translation. -/
theorem translate_then{n} (t t' : {T} S) (u v : {V} S) (hu : AllFinite u) (hv : AllFinite v) (h : (t == {T}.translate u) = true)
    (h' : (t' == {T}.translate v) = true) : (t.andThen t' == {T}.translate (u + v)) = true := by
  obtain ⟨f, i⟩ := {T}.beq_iff.1 h
  obtain ⟨f', i'⟩ := {T}.beq_iff.1 h'
  have hu' : AllFinite (-u) := by
    rw [{V}.allFinite] at hu ⊢
    exact ⟨{", ".join(f"finite_neg.2 hu{'.2'*i}{'.1' if i<n-1 else ''}" for i in range(n))}⟩
  have hv' : AllFinite (-v) := by
    rw [{V}.allFinite] at hv ⊢
    exact ⟨{", ".join(f"finite_neg.2 hv{'.2'*i}{'.1' if i<n-1 else ''}" for i in range(n))}⟩
  refine {T}.beq_iff.2 ⟨?_, ?_⟩
  · exact translate_mul{n} _ _ v u _ hv hu f' f ⟨{", ".join(["(same_add_comm _ _).num"]*n)}⟩
  · exact translate_mul{n} _ _ (-u) (-v) _ hu' hv' i i' ⟨{", ".join(["(num_neg_add _ _).symm"]*n)}⟩
theorem translate_self{n} (v : {V} S) (hv : AllFinite v) : ({T}.translate v == {T}.translate v) = true := by
  have hf := {V}.allFinite.1 hv
  have key : ∀ u : {V} S, AllFinite u → ({M}.translate u == {M}.translate u) = true := by
    intro u hu
    rw [{V}.allFinite] at hu
    rw [{M}.beq_iff, {L}]
    mat_simp []
    have r : ∀ {{s : S}}, IsFinite s → (s == s) = true := fun h => beq_iff.2 ⟨h.not_nan, h.not_nan, rfl⟩
    exact ⟨{", ".join(("r finite_one" if ent(i,"u")=="(one : S)" else "r finite_zero" if ent(i,"u")=="(zero : S)" else "r hu"+".2"*(i//k)+(".1" if i//k<n-1 else "")) for i in range(N))}⟩
  refine {T}.beq_iff.2 ⟨key v hv, key (-v) ?_⟩
  rw [{V}.allFinite]
  exact ⟨{", ".join(f"finite_neg.2 hf{'.2'*i}{'.1' if i<n-1 else ''}" for i in range(n))}⟩
/-- **C102**, {n}D: two translations in a row are, exactly, the translation by the (rounded) sum. -/
theorem C102_translate{n} (u v : {V} S) (hu : AllFinite u) (hv : AllFinite v) :
    (({T}.translate u).andThen ({T}.translate v) == {T}.translate (u + v)) = true :=
  translate_then{n} _ _ u v hu hv (translate_self{n} u hu) (translate_self{n} v hv)
/-- **C102**, {n}D: any chain of translations is, exactly, the translation by the sum as computed by `+=`, if no partial sum
overflows. -/
theorem C102_translations{n} (vs : List ({V} S)) (hv : ∀ v ∈ vs, AllFinite v)
    (hs : ∀ us, us <+: vs → AllFinite (us.foldl {V}.addAssign {V}.zero)) :
    (vs.foldl (fun t v => t.andThen ({T}.translate v)) {T}.identity == {T}.translate (vs.foldl {V}.addAssign {V}.zero)) = true := by
  induction vs using List.reverseRecOn with
  | nil =>
    have z : AllFinite ({V}.zero : {V} S) := hs [] (List.prefix_rfl)
    have r0 : ((zero : S) == zero) = true := beq_iff.2 ⟨finite_zero.not_nan, finite_zero.not_nan, rfl⟩
    have r1 : ((one : S) == one) = true := beq_iff.2 ⟨finite_one.not_nan, finite_one.not_nan, rfl⟩
    have rn : ((zero : S) == -zero) = true := beq_iff.2 ⟨finite_zero.not_nan, (finite_neg.2 finite_zero).not_nan, by
      rw [finite_zero.val, (finite_neg.2 finite_zero).val, IEEE.real_neg, real_zero, neg_zero]⟩
    refine {T}.beq_iff.2 ⟨?_, ?_⟩ <;> rw [{M}.beq_iff, {L}]
    · exact ⟨{", ".join(("r1" if ent(i,"u")=="(one : S)" else "r0") for i in range(N))}⟩
    · exact ⟨{", ".join(("r1" if ent(i,"u")=="(one : S)" else "r0" if ent(i,"u")=="(zero : S)" else "rn") for i in range(N))}⟩
  | append_singleton us v ih =>
    rw [List.foldl_append, List.foldl_append]
    exact translate_then{n} _ _ _ v (hs us (List.prefix_append _ _)) (hv v (by simp))
      (ih (fun w hw => hv w (by simp [hw])) (fun ws h => hs ws (h.trans (List.prefix_append _ _))))
      (translate_self{n} v (hv v (by simp)))
/-- **C102**, {n}D: two scalings in a row multiply the factors, in the forward and in the inverse direction; each entry is
rounded once. -/
theorem C102_scale{n} ({sx} {tx} : S) {fin("s")} {fin("t")} :
    ((({T}.scale {sx}).andThen ({T}.scale {tx})).forward == {M}.scale {" ".join(f"(t{c} * s{c})" for c in lo)}) = true ∧
    ({" → ".join(f"IsFinite (recip s{c}) → IsFinite (recip t{c})" for c in lo)} →
      ((({T}.scale {sx}).andThen ({T}.scale {tx})).inverse == {M}.scale {" ".join(f"(recip s{c} * recip t{c})" for c in lo)}) = true) := by
  have key : ∀ {sx} {tx} : S, {" → ".join(f"IsFinite s{c}" for c in lo)} → {" → ".join(f"IsFinite t{c}" for c in lo)} →
      ({M}.scale {sx} * {M}.scale {tx} == {M}.scale {" ".join(f"(s{c} * t{c})" for c in lo)}) = true := by
    intro {sx} {tx} {" ".join(f"hs{c}" for c in lo)} {" ".join(f"ht{c}" for c in lo)}
    rw [{M}.beq_iff, {L}]
    refine {q(N)} <;> refine beq_of_num' ?_ (by first | exact finite_one.not_nan | exact finite_zero.not_nan | exact isNaN_mul_finite (by assumption) (by assumption)) <;>
      mat_simp [] <;> num_simp [{finl("s")}, {finl("t")}]
  exact ⟨key {tx} {sx} {" ".join(f"ht{c}" for c in lo)} {" ".join(f"hs{c}" for c in lo)}, fun {" ".join(f"k{c} l{c}" for c in lo)} => key _ {"_ "*(2*n-1)}{" ".join(f"k{c}" for c in lo)} {" ".join(f"l{c}" for c in lo)}⟩
/-- **C102**, {n}D: `scale` then `translate` as one transform does to every finite point exactly what the two do one after
the other: `s*p` rounded, `+ v` rounded. -/
theorem C102_place{n} ({sx} : S) {fin("s")} (v : {V} S) (hv : AllFinite v) (p : {P} S) (hp : AllFinite p) :
    (Transform.transform (({T}.scale {sx}).andThen ({T}.translate v)) p == {P}.new {" ".join(f"(s{c} * p.{c} + v.{c})" for c in lo)}) = true ∧
    (AllFinite (Transform.transform ({T}.scale {sx}) p : {P} S) →
      (Transform.transform (({T}.scale {sx}).andThen ({T}.translate v)) p
        == Transform.transform ({T}.translate v) (Transform.transform ({T}.scale {sx}) p : {P} S)) = true) := by
  have first : (Transform.transform (({T}.scale {sx}).andThen ({T}.translate v)) p == {P}.new {" ".join(f"(s{c} * p.{c} + v.{c})" for c in lo)}) = true := by
    show ({M}.translate v * {M}.scale {sx} * p == _) = true
    rw [{V}.allFinite] at hv
    rw [{P}.allFinite] at hp
    obtain ⟨{gs}⟩ := hv
    obtain ⟨{ps}⟩ := hp
    rw [{P}.beq_iff]
    refine {q(n)} <;> refine beq_of_num' ?_ (nan_add_prod (by assumption) (by assumption) (by assumption)) <;>
      mat_simp [{P}.new] <;> refine num_div_of_one ?_ ?_ <;> num_simp [{gs}, {ps}, {finl("s")}]
  refine ⟨first, fun hf => ?_⟩
  have e1 := (C46_float_scale{n} {sx} v p {" ".join(f"hs{c}" for c in lo)} hp hv).1
  have e2 := (C46_float_translate{n} v v _ hf hv.noNaN hv).1
  rw [{P}.beq_iff] at first e1 e2 ⊢
  have cong : ∀ {{a b c d e : S}}, (a == b * c + d) = true → (e == b * c) = true → ∀ f : S, (f == e + d) = true → (a == f) = true := by
    intro a b c d e h1 h2 f h3
    refine beq_of_num ?_ (beq_iff.1 h1).1
    rw [num_of_beq h1, num_of_beq h3]
    exact num_add_congr (num_of_beq h2).symm rfl
  exact ⟨{", ".join("cong first"+x+" e1"+x+" _ e2"+x for x in [".2"*i+(".1" if i<n-1 else "") for i in range(n)])}⟩
/-- **C102**, {n}D: `translate` then `scale` as one transform scales point and offset separately. -/
theorem C102_shift_scale{n} ({sx} : S) {fin("s")} (v : {V} S) (hv : AllFinite v) (p : {P} S) (hp : AllFinite p) {" ".join(f"(ho{c} : IsFinite (s{c} * v.{c}))" for c in lo)} :
    (Transform.transform (({T}.translate v).andThen ({T}.scale {sx})) p == {P}.new {" ".join(f"(s{c} * p.{c} + s{c} * v.{c})" for c in lo)}) = true := by
  show ({M}.scale {sx} * {M}.translate v * p == _) = true
  rw [{V}.allFinite] at hv
  rw [{P}.allFinite] at hp
  obtain ⟨{gs}⟩ := hv
  obtain ⟨{ps}⟩ := hp
  rw [{P}.beq_iff]
  refine {q(n)} <;> refine beq_of_num' ?_ (nan_add_prod (by assumption) (by assumption) (by assumption)) <;>
    mat_simp [{P}.new] <;> refine num_div_of_one ?_ ?_ <;> num_simp [{gs}, {ps}, {finl("s")}]
end
'''
s=HEAD+gen(2)+gen(3)+"end VecMath\n"
open(p,'w').write(s)

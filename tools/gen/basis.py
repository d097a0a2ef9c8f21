p='/verif/lean/Verif/Props/FloatBasis.lean'
HEAD='''import Verif.Props.FloatAxis
import Verif.Props.FloatMatrix
import Verif.Spec.Axes
/-!
# Layer F: the coordinate axes are an exact orthonormal basis (C101)

Generated by `tools/gen/basis.py`. Multiplying by the constants 0 and 1 and adding 0 is exact for finite numbers, so
the laws of an orthonormal basis hold without any rounding error; they fail as soon as one component is infinite.
-/

namespace VecMath
set_option linter.unusedSimpArgs false
set_option linter.unusedVariables false
set_option linter.unusedSectionVars false
open Scalar IEEE

'''
nan={2: 'isNaN_add_left key | exact isNaN_add_right key', 3: 'isNaN_add_left (isNaN_add_left key) | exact isNaN_add_left (isNaN_add_right key) | exact isNaN_add_right key'}
def gen(n):
    D=f"Dimension{n}"; V=f"Vector{n}"; P=f"Point{n}"; M=f"Matrix{n+1}x{n+1}"; R=f"Ray{n}"; T=f"Transform{n}"
    ax="XYZ"[:n]; lo=ax.lower()
    hs=", ".join(f"h{i}" for i in range(n)); ps=", ".join(f"p{i}" for i in range(n))
    k=n+1; N=k*k
    ms=", ".join(f"m{i}" for i in range(N))
    defs=f"{V}.axis, "+", ".join(f"{V}.{c}Axis" for c in lo)+f", {V}.new, {V}.index, {V}.zero, {P}.new, {P}.origin, {P}.index, {R}.new, {R}.at"
    q=lambda k:"⟨"+", ".join(["?_"]*k)+"⟩"
    j=lambda f: ", ".join(f"{V}.{f}_{c}" for c in lo)
    pj=lambda f: ", ".join(f"{P}.{f}_{c}" for c in lo)
    L=f"forall_lt_{N}"
    rf=", ".join(["rfl"]*n)
    out=f'''/-! ## {n}D -/
section
variable {{S : Type}} [Scalar S] [IEEE S]
/-- **C101**, {n}D: the components of the axes, of the zero vector and of the origin. -/
theorem C101_components{n} (d e : {D}) :
    ({V}.axis d : {V} S).index e = (if e = d then one else zero) ∧
    ({V}.zero : {V} S).index e = zero ∧ ({P}.origin : {P} S).index e = zero := by
  cases d <;> cases e <;> exact ⟨rfl, rfl, rfl⟩
theorem C101_named{n} : {" ∧ ".join(f"({V}.axis .{c} : {V} S) = {V}.{c.lower()}Axis" for c in ax)} :=
  ⟨{rf}⟩
/-- **C101**, {n}D: the inner product with an axis is the component, exactly. -/
theorem C101_dot{n} (v : {V} S) (hv : AllFinite v) (d : {D}) :
    ((Api.dot ({V}.axis d : {V} S) v : S) == v.index d) = true ∧ ((Api.dot v ({V}.axis d : {V} S) : S) == v.index d) = true := by
  rw [{V}.allFinite] at hv
  obtain ⟨{hs}⟩ := hv
  cases d <;> constructor <;> refine beq_of_num' ?_ (IsFinite.not_nan (by assumption)) <;>
    simp only [{defs}, {V}.dot_def] <;> num_simp [{hs}]
/-- **C101**, {n}D: every finite vector is, exactly, the sum of its components times the axes. -/
theorem C101_sum{n} (v : {V} S) (hv : AllFinite v) :
    ({" + ".join(f"({V}.{c}Axis : {V} S) * v.{c}" for c in lo)} == v) = true ∧
    ({" + ".join(f"v.{c} * ({V}.{c}Axis : {V} S)" for c in lo)} == v) = true := by
  rw [{V}.allFinite] at hv
  obtain ⟨{hs}⟩ := hv
  rw [{V}.beq_iff, {V}.beq_iff]
  refine ⟨{q(n)}, {q(n)}⟩ <;> refine beq_of_num' ?_ (IsFinite.not_nan (by assumption)) <;>
    simp only [{j("add")}, {j("mul")}, {j("smul")}, {defs}] <;> num_simp [{hs}]
theorem finite_axis{n} (d : {D}) : AllFinite ({V}.axis d : {V} S) := by
  rw [{V}.allFinite]
  cases d <;> exact ⟨{", ".join(["by first | exact finite_one | exact finite_zero"]*n)}⟩
/-- **C101**, {n}D: the axes are orthonormal. -/
theorem C101_orthogonal{n} (d e : {D}) :
    ((Api.dot ({V}.axis d : {V} S) ({V}.axis e : {V} S) : S) == if d = e then one else zero) = true := by
  have := (C101_dot{n} _ (finite_axis{n} (S := S) e) d).1
  rwa [(C101_components{n} e d).1] at this
/-- **C101**, {n}D: a ray along an axis moves one coordinate only, by exactly one rounded addition. -/
theorem C101_ray{n} (p : {P} S) (d : {D}) (t : S) (hp : AllFinite p) (ht : IsFinite t) (e : {D}) :
    ((({R}.new p ({V}.axis d)).at t).index e == if e = d then p.index d + t else p.index e) = true := by
  rw [{P}.allFinite] at hp
  obtain ⟨{ps}⟩ := hp
  cases d <;> cases e <;> refine beq_of_num' ?_ (by first | exact IsFinite.not_nan (by assumption) | exact isNaN_add_finite (by assumption) ht.not_nan) <;>
    simp only [{pj("add")}, {j("mul")}, {defs}, if_pos, if_neg, reduceCtorEq, if_false] <;> num_simp [{ps}, ht]
'''
    # columns
    out+=f'''/-- **C101**, {n}D: the product of a finite matrix with an axis is, exactly, the column of that axis; the product of
an axis with the matrix is the row. -/
theorem C101_columns{n} (m : {M} S) (hm : AllFinite m) (b : Build) (d e : {D}) :
    (∃ s, m.get b e.number d.number = .ok s ∧ ((m * ({V}.axis d : {V} S)).index e == s) = true) ∧
    (∃ s, m.get b d.number e.number = .ok s ∧ ((({V}.axis d : {V} S) * m).index e == s) = true) := by
  have hf := {M}.allFinite.1 hm
  rw [{L}] at hf
  obtain ⟨{ms}⟩ := hf
  cases d <;> cases e <;>
    refine ⟨⟨_, by cases b <;> rfl, ?_⟩, ⟨_, by cases b <;> rfl, ?_⟩⟩ <;>
    refine beq_of_num' ?_ (IsFinite.not_nan (by assumption)) <;> simp only [{defs}] <;> mat_simp [] <;> num_simp [{ms}] <;> rfl
/-- **C101**, {n}D: a finite affine matrix sends the origin, exactly, to its last column. -/
theorem C101_translation{n} (m : {M} S) (hm : AllFinite m) (b : Build) (ha : m.HasAffineRow b) (e : {D}) :
    ∃ s, m.get b e.number {n} = .ok s ∧ ((m * ({P}.origin : {P} S)).index e == s) = true := by
  have hf := {M}.allFinite.1 hm
  rw [{L}] at hf
  obtain ⟨{ms}⟩ := hf
  obtain ⟨{", ".join(f"a{i}" for i in range(k))}, {", ".join(f"g{i}" for i in range(k))}, {", ".join(f"e{i}" for i in range(k))}⟩ := ha
  have g{n} : a{n} = m.m[{N-1}] := (Except.ok.inj (by rw [← g{n}]; cases b <;> rfl)).symm
  subst g{n}
  have ew : num m.m[{N-1}] = num (one : S) := num_of_beq e{n}
  cases e <;> refine ⟨_, by cases b <;> rfl, ?_⟩ <;>
    refine beq_of_num' ?_ (IsFinite.not_nan (by assumption)) <;> simp only [{defs}] <;> mat_simp [] <;>
    refine num_div_of_one ?_ ?_ <;> (try rfl) <;> num_simp [{ms}, ew] <;> rfl
/-- **C101**, {n}D: a finite affine matrix is determined by what it does to the origin and to the axes: two such matrices
that do the same to these are equal. -/
theorem C101_determined{n} (m m' : {M} S) (hm : AllFinite m) (hm' : AllFinite m') (b : Build) (ha : m.HasAffineRow b) (ha' : m'.HasAffineRow b)
    (ho : (m * ({P}.origin : {P} S) == m' * ({P}.origin : {P} S)) = true)
    (hd : ∀ d, (m * ({V}.axis d : {V} S) == m' * ({V}.axis d : {V} S)) = true) : (m == m') = true := by
  have col : ∀ d e, ∀ s s', m.get b e d = .ok s → m'.get b e d = .ok s' → (∃ x x' : S, (x == s) = true ∧ (x' == s') = true ∧ (x == x') = true) →
      (s == s') = true := by
    rintro d e s s' - - ⟨x, x', h, h', h''⟩
    rw [beq_iff] at *
    exact ⟨h.2.1, h'.2.1, by rw [← h.2.2, h''.2.2, h'.2.2]⟩
  have hdi : ∀ d e, ((m * ({V}.axis d : {V} S)).index e == (m' * ({V}.axis d : {V} S)).index e) = true := by
    intro d e
    have := {V}.beq_iff.1 (hd d)
    cases e
{chr(10).join("    · exact this"+(".1" if i==0 else ".2"*i+(".1" if i<n-1 else "")) for i in range(n))}
  have hoi : ∀ e, ((m * ({P}.origin : {P} S)).index e == (m' * ({P}.origin : {P} S)).index e) = true := by
    intro e
    have := {P}.beq_iff.1 ho
    cases e
{chr(10).join("    · exact this"+(".1" if i==0 else ".2"*i+(".1" if i<n-1 else "")) for i in range(n))}
  have lin : ∀ d e : {D}, ∀ s s', m.get b e.number d.number = .ok s → m'.get b e.number d.number = .ok s' → (s == s') = true := by
    intro d e s s' g g'
    obtain ⟨x, k, hx⟩ := (C101_columns{n} m hm b d e).1
    obtain ⟨x', k', hx'⟩ := (C101_columns{n} m' hm' b d e).1
    rw [g] at k; rw [g'] at k'
    obtain rfl := Except.ok.inj k
    obtain rfl := Except.ok.inj k'
    exact col _ _ _ _ g g' ⟨_, _, hx, hx', hdi d e⟩
  have tr : ∀ e : {D}, ∀ s s', m.get b e.number {n} = .ok s → m'.get b e.number {n} = .ok s' → (s == s') = true := by
    intro e s s' g g'
    obtain ⟨x, k, hx⟩ := C101_translation{n} m hm b ha e
    obtain ⟨x', k', hx'⟩ := C101_translation{n} m' hm' b ha' e
    rw [g] at k; rw [g'] at k'
    obtain rfl := Except.ok.inj k
    obtain rfl := Except.ok.inj k'
    exact col _ _ _ _ g g' ⟨_, _, hx, hx', hoi e⟩
  obtain ⟨{", ".join(f"a{i}" for i in range(k))}, {", ".join(f"g{i}" for i in range(k))}, {", ".join(f"e{i}" for i in range(k))}⟩ := ha
  obtain ⟨{", ".join(f"a{i}'" for i in range(k))}, {", ".join(f"g{i}'" for i in range(k))}, {", ".join(f"e{i}'" for i in range(k))}⟩ := ha'
  have row : ∀ s s' c : S, (s == c) = true → (s' == c) = true → (s == s') = true := by
    intro s s' c h h'
    rw [beq_iff] at *
    exact ⟨h.1, h'.1, by rw [h.2.2, h'.2.2]⟩
  rw [{M}.beq_iff, {L}]
  refine {q(N)}
'''
    for i in range(N):
        r,c=divmod(i,k)
        if r==n:
            out+=f'''  · have k1 : a{c} = m.m[{i}] := (Except.ok.inj (by rw [← g{c}]; cases b <;> rfl)).symm
    have k2 : a{c}' = m'.m[{i}] := (Except.ok.inj (by rw [← g{c}']; cases b <;> rfl)).symm
    rw [← k1, ← k2]; exact row _ _ _ e{c} e{c}'
'''
        elif c==n:
            out+=f"  · exact tr .{ax[r]} _ _ (by cases b <;> rfl) (by cases b <;> rfl)\n"
        else:
            out+=f"  · exact lin .{ax[c]} .{ax[r]} _ _ (by cases b <;> rfl) (by cases b <;> rfl)\n"
    out+=f'''/-- **C101** ends here: next to an infinite component the inner product with an axis is NaN, although the component
asked for may be any number. -/
theorem C101_infinite{n} (v : {V} S) (d e : {D}) (hne : e ≠ d) (hi : IsInf (v.index e)) :
    IsNaN (Api.dot ({V}.axis d : {V} S) v : S) := by
  have key : IsNaN ((zero : S) * v.index e) := by
    obtain ⟨s, hs⟩ := hi
    unfold IsNaN; rw [den_mul, hs, den_zero]; simp [Rounding.mul, Val.real]
  cases d <;> cases e <;> first | exact absurd rfl hne | exact {nan[n]}
end
section
variable {{S : Type}} [Scalar S] [IEEE S] [Binary S]
/-- **C101**, {n}D: the axes have length exactly 1 and are their own normalization. -/
theorem C101_unit{n} (d : {D}) : (Api.length ({V}.axis d : {V} S) == one) = true ∧
    (({V}.axis d : {V} S).normalize == {V}.axis d) = true := by
  have hd : ({V}.axis d : {V} S).index d = one := by rw [(C101_components{n} d d).1, if_pos rfl]
  have he : ∀ e ≠ d, ({V}.axis d : {V} S).index e = zero := fun e h => by rw [(C101_components{n} d e).1, if_neg h]
  have zz : ((zero : S) == zero) = true := beq_iff.2 ⟨finite_zero.not_nan, finite_zero.not_nan, rfl⟩
  have key := C98_axis{n} ({V}.axis d : {V} S) d (by rw [hd]; exact finite_one) (fun e h => by rw [he e h]; exact zz)
    (by rw [hd, real_one, one_pow]; exact .inr (by rw [abs_one]; exact one_normal)) (by rw [hd, real_one, one_pow]; linarith [three_le_overflow (S := S)])
  rw [hd, real_one] at key
  obtain ⟨k1, k2⟩ := key
  have oo : ∀ s : S, IsFinite s → real s = 1 → (s == one) = true := fun s h h' =>
    beq_iff.2 ⟨h.not_nan, finite_one.not_nan, by rw [h.val, finite_one.val, h', real_one]⟩
  constructor
  · rw [beq_iff] at k1 ⊢
    refine ⟨k1.1, finite_one.not_nan, ?_⟩
    rw [k1.2.2, (finite_abs.2 finite_one).val, finite_one.val, real_abs, real_one, abs_one]
  · obtain ⟨f, r, z⟩ := k2 one_ne_zero
    rw [{V}.beq_iff]
    have hd' := oo _ f (by rw [r]; simp)
    cases d
'''
    for c in range(n):
        o=[]
        for e in range(n):
            o.append("hd'" if e==c else f"z .{ax[e]} (by decide)")
        out+=f"    · exact ⟨{', '.join(o)}⟩\n"
    out+="end\n"
    return out
s=HEAD+gen(2)+gen(3)+'''section
variable {S : Type} [Scalar S] [IEEE S]
/-- **C101**, 3D: the vector product with an axis swaps the other two components and changes one sign, exactly. In
particular the axes form a right-handed system. -/
theorem C101_cross3 (v : Vector3 S) (hv : AllFinite v) :
    (Api.cross (Vector3.xAxis : Vector3 S) v == Vector3.new zero (-v.z) v.y) = true ∧
    (Api.cross (Vector3.yAxis : Vector3 S) v == Vector3.new v.z zero (-v.x)) = true ∧
    (Api.cross (Vector3.zAxis : Vector3 S) v == Vector3.new (-v.y) v.x zero) = true := by
  rw [Vector3.allFinite] at hv
  obtain ⟨h0, h1, h2⟩ := hv
  have c00 : ∀ {s t : S}, IsFinite s → IsFinite t → num (zero * s - zero * t) = num (zero : S) := fun hs ht =>
    (num_sub_congr (IEEE.num_zero_mul hs) (IEEE.num_zero_mul ht)).trans (same_sub_zero _).num
  have c01 : ∀ {s t : S}, IsFinite s → IsFinite t → num (zero * s - one * t) = num (-t) := fun hs ht =>
    (num_sub_congr (IEEE.num_zero_mul hs) (num_one_mul _)).trans ((same_sub _ _).num.trans (num_zero_add _))
  have c10 : ∀ {s t : S}, IsFinite s → IsFinite t → num (one * s - zero * t) = num s := fun hs ht =>
    (num_sub_congr (num_one_mul _) (IEEE.num_zero_mul ht)).trans (same_sub_zero _).num
  have n0 := finite_neg.2 h0
  have n1 := finite_neg.2 h1
  have n2 := finite_neg.2 h2
  rw [Vector3.beq_iff, Vector3.beq_iff, Vector3.beq_iff]
  refine ⟨⟨?_, ?_, ?_⟩, ⟨?_, ?_, ?_⟩, ?_, ?_, ?_⟩ <;> refine beq_of_num' ?_ (by first | exact IsFinite.not_nan (by assumption) | exact finite_zero.not_nan) <;>
    simp only [Api.cross, CrossProduct.cross, Vector3.axis, Vector3.xAxis, Vector3.yAxis, Vector3.zAxis, Vector3.new]
  · exact c00 h2 h1
  · exact c01 h0 h2
  · exact c10 h1 h0
  · exact c10 h2 h1
  · exact c00 h0 h2
  · exact c01 h1 h0
  · exact c01 h2 h1
  · exact c10 h0 h2
  · exact c00 h1 h0
end
end VecMath
'''
open(p,'w').write(s)

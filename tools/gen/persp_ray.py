def gen(N):
    M={2:"Matrix3x3",3:"Matrix4x4"}[N]; P=f"Point{N}"; V=f"Vector{N}"; R=f"Ray{N}"; T=f"Transform{N}"
    K=N+1; L=f"(Fin.last {N})"
    of=lambda v:"⟨"+", ".join(f"Ideal.of ({v} {i})" for i in range(N))+"⟩"
    triv="⟨"+", ".join(["Ideal.finite_of _"]*N)+"⟩"
    def hom(T_,v,e): return f"""  have h{v} : ({of(v)} : {T_} Ideal).hom = {v} := by
    funext i
    fin_cases i
"""+"\n".join(f"    · simp [{T_}.hom]" for i in range(N))+f"\n    · simp [{T_}.hom]; exact {e}.symm\n"
    return f"""
/-- **C120** without rounding: transforming a ray by a pair of inverse matrices (as `try_from` gives) is right for every ray, i.e. it
commutes with evaluating the ray at points that have an image, exactly if the last row of the matrix is `0 .. 0 1`. So it is wrong for
every perspective matrix, and for every multiple of an affine matrix other than itself. -/
theorem C120_ray_iff{N} (t : {T} Ideal) (ht : AllFinite t) (hp : t.Paired) :
    (∀ (r : {R} Ideal) (s : Ideal), AllFinite r → IsFinite s → t.forward.weight r.origin ≠ 0 → t.forward.weight (r.at s) ≠ 0 →
      ((Transform.transform t r : {R} Ideal).at s == (Transform.transform t (r.at s) : {P} Ideal)) = true) ↔ t.forward.Affine := by
  obtain ⟨hf, hi⟩ := {T}.allFinite.1 ht
  refine ⟨fun h => ?_, fun h r s hr hs _ _ => C55_real{N} t hf h r hr s hs⟩
  have h1 := ({T}.paired_iff hf hi).1 hp
  have h2 := mul_eq_one_comm.1 h1
  refine proj_ray t.forward.toReal (fun x hx => ?_) ?_ ?_ 0
  · have : t.inverse.toReal.mulVec (t.forward.toReal.mulVec x) = x := by rw [Matrix.mulVec_mulVec, h2, Matrix.one_mulVec]
    rw [← this, hx, Matrix.mulVec_zero]
  · intro o v s o1 v0 ow sw i
{hom(P,'o','o1').replace(chr(10)+'  ',chr(10)+'    ').rstrip() if False else ''.join('  '+l+chr(10) for l in hom(P,'o','o1').splitlines())}{''.join('  '+l+chr(10) for l in hom(V,'v','v0').splitlines())}    have fo : AllFinite ({of('o')} : {P} Ideal) := {P}.allFinite.2 {triv}
    have fv : AllFinite ({of('v')} : {V} Ideal) := {V}.allFinite.2 {triv}
    generalize ({of('o')} : {P} Ideal) = O at ho fo
    generalize ({of('v')} : {V} Ideal) = U at hv fv
    have fr : AllFinite ({R}.new O U) := {R}.allFinite.2 ⟨fo, fv⟩
    have hat : (({R}.new O U).at (Ideal.of s)).hom = o + s • v := by
      rw [{R}.hom_at fr (Ideal.finite_of _), Ideal.real_of, ← ho, ← hv]; rfl
    have w0 : t.forward.weight O ≠ 0 := by unfold {M}.weight; rw [ho]; exact ow
    have w1 : t.forward.weight (({R}.new O U).at (Ideal.of s)) ≠ 0 := by unfold {M}.weight; rw [hat]; exact sw
    have e := h ({R}.new O U) (Ideal.of s) fr (Ideal.finite_of _) w0 w1
    obtain ⟨g0, k0⟩ := {M}.mulp_aux hf fo w0
    obtain ⟨g1, k1⟩ := {M}.mulp_aux hf ({R}.fin_at fr (Ideal.finite_of _)) w1
    have gv := {M}.fin_mulv hf fv
    have ftr : AllFinite ({R}.new (t.forward * O) (t.forward * U)) := {R}.allFinite.2 ⟨g0, gv⟩
    change (({R}.new (t.forward * O) (t.forward * U)).at (Ideal.of s) == t.forward * ({R}.new O U).at (Ideal.of s)) = true at e
    rw [{P}.beq_toReal ({R}.fin_at ftr (Ideal.finite_of _)) g1, {R}.toReal_at ftr (Ideal.finite_of _)] at e
    have e' := congrFun e i
    change (t.forward * O).toReal i + real (Ideal.of s) * (t.forward * U).toReal i = _ at e'
    rw [k0, k1, {M}.toReal_mulv hf fv, Ideal.real_of, {M}.weight, {M}.weight, hat, ho, hv] at e'
    exact e'.symm
  · by_contra hc
    push Not at hc
    have := congrFun (congrFun h1 {L}) {L}
    rw [Matrix.mul_apply, Finset.sum_eq_zero (fun j _ => by rw [hc j, zero_mul])] at this
    simp at this
"""
def body(): return gen(2)+gen(3)

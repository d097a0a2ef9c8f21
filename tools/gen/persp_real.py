import sys,os
sys.path.insert(0,os.path.dirname(os.path.abspath(__file__)))
import persp_ray
base=open(os.path.join(os.path.dirname(os.path.abspath(__file__)),'persp_base.lean')).read()
def gen(N):
    M={2:"Matrix3x3",3:"Matrix4x4"}[N]; P=f"Point{N}"; V=f"Vector{N}"; R=f"Ray{N}"; B=f"BoundingBox{N}"; T=f"Transform{N}"
    ax="xyz"[:N]; nc=2**N; K=N+1
    L=f"(Fin.last {N})"
    fc="\n".join("  · "+(f"have := congrFun e {i}; simpa [{P}.toReal, {V}.toReal, {P}.hom, {V}.hom] using this") for i in range(N))
    o=f"""
/-! ## Dimension {N} -/
section
variable {{m : {M} Ideal}} {{r : {R} Ideal}} {{s : Ideal}} {{p : {P} Ideal}}
theorem {R}.hom_at (hr : AllFinite r) (hs : IsFinite s) : (r.at s).hom = r.origin.hom + real s • r.direction.hom := by
  have e := {R}.toReal_at hr hs
  funext i
  fin_cases i
{fc}
  · simp [{P}.hom, {V}.hom]
theorem {M}.mulVec_at (hr : AllFinite r) (hs : IsFinite s) (i : Fin {K}) :
    (m.toReal.mulVec (r.at s).hom) i = (m.toReal.mulVec r.origin.hom) i + real s * (m.toReal.mulVec r.direction.hom) i := by
  rw [{R}.hom_at hr hs, Matrix.mulVec_add, Matrix.mulVec_smul]; rfl
theorem {M}.weight_at (hr : AllFinite r) (hs : IsFinite s) :
    m.weight (r.at s) = m.weight r.origin + real s * (m.toReal.mulVec r.direction.hom) {L} := {M}.mulVec_at hr hs _
end

/-- **C120** without rounding: a projective matrix maps lines to lines. The image of the point with parameter `s` is on the line
through the images of the points with the parameters 0 and 1, at the parameter `s * w(1) / w(s)`. -/
theorem C120_line{N} (m : {M} Ideal) (hm : AllFinite m) (r : {R} Ideal) (hr : AllFinite r) (s t : Ideal) (hs : IsFinite s) (ht : IsFinite t)
    (h0 : m.weight (r.at zero) ≠ 0) (h1 : m.weight (r.at one) ≠ 0) (h2 : m.weight (r.at s) ≠ 0)
    (e : real t = real s * m.weight (r.at one) / m.weight (r.at s)) :
    (({R}.new (m * r.at zero) ((m * r.at one) - (m * r.at zero)) : {R} Ideal).at t == m * r.at s) = true := by
  have f0 := {R}.fin_at hr (finite_zero (S := Ideal))
  have f1 := {R}.fin_at hr (finite_one (S := Ideal))
  have f2 := {R}.fin_at hr hs
  obtain ⟨g0, k0⟩ := {M}.mulp_aux hm f0 h0
  obtain ⟨g1, k1⟩ := {M}.mulp_aux hm f1 h1
  obtain ⟨g2, k2⟩ := {M}.mulp_aux hm f2 h2
  have fr : AllFinite ({R}.new (m * r.at zero) ((m * r.at one) - (m * r.at zero)) : {R} Ideal) :=
    {R}.allFinite.2 ⟨g0, {V}.fin_subp g1 g0⟩
  rw [{P}.beq_toReal ({R}.fin_at fr ht) g2, {R}.toReal_at fr ht]
  funext i
  change (m * r.at zero).toReal i + real t * ((m * r.at one) - (m * r.at zero)).toReal i = _
  rw [{V}.toReal_subp g1 g0]
  change (m * r.at zero).toReal i + real t * ((m * r.at one).toReal i - (m * r.at zero).toReal i) = _
  rw [k0, k1, k2, e]
  rw [{M}.mulVec_at hr finite_zero, {M}.mulVec_at hr finite_one, {M}.mulVec_at hr hs]
  rw [{M}.weight_at hr finite_zero] at h0
  rw [{M}.weight_at hr finite_one] at h1
  rw [{M}.weight_at hr hs] at h2
  rw [{M}.weight_at hr finite_zero, {M}.weight_at hr finite_one, {M}.weight_at hr hs]
  simp only [real_zero, real_one, zero_mul, add_zero, one_mul] at h0 h1 h2 ⊢
  exact proj_mix h0 h1 h2
/-- **C120** without rounding: the image of a segment whose two ends have positive weight is, point by point, the segment between the
images of its ends: every point of it has positive weight, is mapped into that segment, and every point of that segment is reached. -/
theorem C120_segment{N} (m : {M} Ideal) (hm : AllFinite m) (r : {R} Ideal) (hr : AllFinite r)
    (h0 : 0 < m.weight (r.at zero)) (h1 : 0 < m.weight (r.at one)) :
    (∀ s : Ideal, IsFinite s → (zero ≤? s) = true → (s ≤? one) = true → 0 < m.weight (r.at s) ∧
      ∃ t : Ideal, IsFinite t ∧ (zero ≤? t) = true ∧ (t ≤? one) = true ∧
        (({R}.new (m * r.at zero) ((m * r.at one) - (m * r.at zero)) : {R} Ideal).at t == m * r.at s) = true) ∧
    (∀ t : Ideal, IsFinite t → (zero ≤? t) = true → (t ≤? one) = true →
      ∃ s : Ideal, IsFinite s ∧ (zero ≤? s) = true ∧ (s ≤? one) = true ∧
        (({R}.new (m * r.at zero) ((m * r.at one) - (m * r.at zero)) : {R} Ideal).at t == m * r.at s) = true) := by
  have W : ∀ s : Ideal, IsFinite s → m.weight (r.at s) = (1 - real s) * m.weight (r.at zero) + real s * m.weight (r.at one) := by
    intro s hs
    rw [{M}.weight_at hr finite_zero, {M}.weight_at hr finite_one, {M}.weight_at hr hs, real_zero, real_one]; ring
  constructor
  · intro s hs a b
    rw [Ideal.le_real finite_zero hs, real_zero] at a
    rw [Ideal.le_real hs finite_one, real_one] at b
    have w := proj_pos a b h0 h1
    rw [← W s hs] at w
    refine ⟨w, Ideal.of (real s * m.weight (r.at one) / m.weight (r.at s)), Ideal.finite_of _, ?_, ?_, ?_⟩
    · rw [Ideal.le_real finite_zero (Ideal.finite_of _), real_zero, Ideal.real_of]
      exact div_nonneg (mul_nonneg a h1.le) w.le
    · rw [Ideal.le_real (Ideal.finite_of _) finite_one, real_one, Ideal.real_of, div_le_one w, W s hs]
      nlinarith
    · exact C120_line{N} m hm r hr s _ hs (Ideal.finite_of _) h0.ne' h1.ne' w.ne' (Ideal.real_of _)
  · intro t ht a b
    rw [Ideal.le_real finite_zero ht, real_zero] at a
    rw [Ideal.le_real ht finite_one, real_one] at b
    have d : 0 < (1 - real t) * m.weight (r.at one) + real t * m.weight (r.at zero) := proj_pos a b h1 h0
    have hs : IsFinite (Ideal.of (real t * m.weight (r.at zero) / ((1 - real t) * m.weight (r.at one) + real t * m.weight (r.at zero)))) := Ideal.finite_of _
    refine ⟨_, hs, ?_, ?_, ?_⟩
    · rw [Ideal.le_real finite_zero hs, real_zero, Ideal.real_of]
      exact div_nonneg (mul_nonneg a h0.le) d.le
    · rw [Ideal.le_real hs finite_one, real_one, Ideal.real_of, div_le_one d]
      nlinarith
    · have w := W _ hs
      rw [Ideal.real_of] at w
      have w' : m.weight (r.at (Ideal.of (real t * m.weight (r.at zero) / ((1 - real t) * m.weight (r.at one) + real t * m.weight (r.at zero))))) =
          m.weight (r.at zero) * m.weight (r.at one) / ((1 - real t) * m.weight (r.at one) + real t * m.weight (r.at zero)) := by
        rw [w]; field_simp; ring
      have wp : 0 < m.weight (r.at (Ideal.of (real t * m.weight (r.at zero) / ((1 - real t) * m.weight (r.at one) + real t * m.weight (r.at zero))))) := by
        rw [w']; positivity
      refine C120_line{N} m hm r hr _ t hs ht h0.ne' h1.ne' wp.ne' ?_
      rw [w', Ideal.real_of]
      have := h0.ne'; have := h1.ne'; have := d.ne'
      field_simp
/-- **C120** without rounding: points in front of the eye (positive weight) keep their order along a ray: a larger parameter on the
ray is a larger parameter on the image of the ray. -/
theorem C120_order{N} (m : {M} Ideal) (r : {R} Ideal) (hr : AllFinite r) (s s' t t' : Ideal) (hs : IsFinite s) (hs' : IsFinite s')
    (ht : IsFinite t) (ht' : IsFinite t')
    (h0 : 0 < m.weight (r.at zero)) (h1 : 0 < m.weight (r.at one)) (h2 : 0 < m.weight (r.at s)) (h3 : 0 < m.weight (r.at s'))
    (e : real t = real s * m.weight (r.at one) / m.weight (r.at s)) (e' : real t' = real s' * m.weight (r.at one) / m.weight (r.at s')) :
    (t <? t') = (s <? s') := by
  rw [Bool.eq_iff_iff, Ideal.lt_real ht ht', Ideal.lt_real hs hs', e, e', div_lt_div_iff₀ h2 h3]
  have a := {M}.weight_at (m := m) hr finite_zero
  have c := {M}.weight_at (m := m) hr hs
  have d := {M}.weight_at (m := m) hr hs'
  rw [real_zero, zero_mul, add_zero] at a
  have key : real s' * m.weight (r.at one) * m.weight (r.at s) - real s * m.weight (r.at one) * m.weight (r.at s') =
      (real s' - real s) * (m.weight (r.at one) * m.weight (r.at zero)) := by
    rw [c, d, a]; ring
  have pp := mul_pos h1 h0
  constructor
  · intro h
    by_contra hh
    have := mul_nonneg (sub_nonneg.2 (not_lt.1 hh)) pp.le
    nlinarith
  · intro h
    have := mul_pos (sub_pos.2 h) pp
    nlinarith
/-- **C120** without rounding: a matrix and any multiple of it act alike on points: `(m * s) * p == m * p`. -/
theorem C120_scale{N} (m : {M} Ideal) (hm : AllFinite m) (p : {P} Ideal) (hp : AllFinite p) (s : Ideal) (hs : IsFinite s) (h0 : real s ≠ 0)
    (hw : m.weight p ≠ 0) : (m * s).weight p ≠ 0 ∧ ((m * s) * p == m * p) = true := by
  have fm := {M}.fin_muls hm hs
  have w : ∀ i, ((m * s).toReal.mulVec p.hom) i = real s * (m.toReal.mulVec p.hom) i := by
    intro i
    rw [{M}.toReal_muls hm hs, Matrix.smul_mulVec]; rfl
  have hw' : (m * s).weight p ≠ 0 := by
    unfold {M}.weight; rw [w]; exact mul_ne_zero h0 hw
  obtain ⟨g0, k0⟩ := {M}.mulp_aux hm hp hw
  obtain ⟨g1, k1⟩ := {M}.mulp_aux fm hp hw'
  refine ⟨hw', ?_⟩
  rw [{P}.beq_toReal g1 g0]
  funext i
  rw [k0, k1, w, {M}.weight, w, mul_div_mul_left _ _ h0]; rfl
"""
    # box
    corners=[]
    for k in range(nc):
        corners.append("⟨"+", ".join(f"b.{'max' if (k>>i)&1 else 'min'}.{a}" for i,a in enumerate(ax))+"⟩")
    coef="abcd"
    aff=" + ".join(f"c{i} * {a}" for i,a in enumerate(ax))+f" + c{N}"
    def affc(k): return " + ".join(f"c{i} * {'u' if (k>>i)&1 else 'l'}{i}" for i in range(N))+f" + c{N}"
    lus=" ".join(f"l{i} u{i}" for i in range(N))
    hyps=" ".join(f"(h{k} : 0 ≤ {affc(k)})" for k in range(nc))
    hypsp=" ".join(f"(h{k} : 0 < {affc(k)})" for k in range(nc))
    xs=" ".join(f"(hl{i} : l{i} ≤ {a}) (hu{i} : {a} ≤ u{i})" for i,a in enumerate(ax))
    cs=" ".join(f"c{i}" for i in range(K))
    # proof: reduce each axis: c*x between c*l and c*u
    def proof(rel):
        s=""
        for i,a in enumerate(ax):
            s+=f"  have e{i} : c{i} * l{i} ≤ c{i} * {a} ∨ c{i} * u{i} ≤ c{i} * {a} := lin_end hl{i} hu{i}\n"
        s+="  "+" <;> ".join(f"rcases e{i} with e{i} | e{i}" for i in range(N))+" <;> linarith\n"
        return s
    o+=f"""
theorem aff_nonneg{N} {{{cs} {lus} {' '.join(ax)} : ℝ}} {xs}
    {hyps} : 0 ≤ {aff} := by
{proof('≤')}theorem aff_pos{N} {{{cs} {lus} {' '.join(ax)} : ℝ}} {xs}
    {hypsp} : 0 < {aff} := by
{proof('<')}
"""
    vec=", ".join(f"real p.{a}" for a in ax)
    def row(i): return f"(m.toReal {i})"
    mv=" + ".join(f"m.toReal i {j} * real p.{a}" for j,a in enumerate(ax))+f" + m.toReal i {N}"
    pl="hi."
    def sel(base,i,n):  # conj selector
        if n==1: return base
        s=base
        if i<n-1: return base+".2"*i+".1"
        return base+".2"*i
    rr="\n".join(f"""  have r{i} : real b.min.{a} ≤ real p.{a} ∧ real p.{a} ≤ real b.max.{a} := by
    have h := {sel('hi',i,N)}
    exact ⟨(Ideal.le_real {sel('fb.1',i,N)} {sel('fp',i,N)}).1 h.1, (Ideal.le_real {sel('fp',i,N)} {sel('fb.2',i,N)}).1 h.2⟩""" for i,a in enumerate(ax))
    fps=", ".join(f"finite_btw {sel('fb.1',i,N)} {sel('fb.2',i,N)} {sel('hi',i,N)}.1 {sel('hi',i,N)}.2" for i in range(N))
    rargs=" ".join(f"r{i}.1 r{i}.2" for i in range(N))
    cargs=" ".join(f"(c{i} := A {i})" for i in range(N))
    Alin=" + ".join(f"A {j} * real q.{a}" for j,a in enumerate(ax))+f" + A {N}"
    o+=f"""theorem {M}.mulVec_lin (m : {M} Ideal) (p : {P} Ideal) (i : Fin {K}) :
    (m.toReal.mulVec p.hom) i = {mv} := by
  simp [Matrix.mulVec, dotProduct, Fin.sum_univ_succ, {P}.hom]; try ring
section
variable {{b : {B} Ideal}} {{p : {P} Ideal}}
theorem {B}.fin_inside (hb : AllFinite b) (hi : b.isInside p = true) : AllFinite p := by
  rw [isInside{N}_iff] at hi
  have fb := hb
  rw [{B}.allFinite, {P}.allFinite, {P}.allFinite] at fb
  exact {P}.allFinite.2 ⟨{fps}⟩
/-- An affine function that is positive at the corners is positive in the box. -/
theorem {B}.aff_pos (hb : AllFinite b) (build : Build) (hi : b.isInside p = true) (A : Fin {K} → ℝ)
    (h : ∀ k : UInt32, k < {nc} → ∀ q, b.corner build k = .ok q → 0 < {Alin}) :
    0 < {Alin.replace('q.','p.')} := by
  have fp := {P}.allFinite.1 ({B}.fin_inside hb hi)
  rw [isInside{N}_iff] at hi
  have fb := hb
  rw [{B}.allFinite, {P}.allFinite, {P}.allFinite] at fb
  obtain ⟨{', '.join(f'c{k}' for k in range(nc))}⟩ := corner_ok{N} build b
{rr}
  exact aff_pos{N} {rargs} {' '.join(f'(h {k} (by decide) _ c{k})' for k in range(nc))}
theorem {B}.aff_nonneg (hb : AllFinite b) (build : Build) (hi : b.isInside p = true) (A : Fin {K} → ℝ)
    (h : ∀ k : UInt32, k < {nc} → ∀ q, b.corner build k = .ok q → 0 ≤ {Alin}) :
    0 ≤ {Alin.replace('q.','p.')} := by
  have fp := {P}.allFinite.1 ({B}.fin_inside hb hi)
  rw [isInside{N}_iff] at hi
  have fb := hb
  rw [{B}.allFinite, {P}.allFinite, {P}.allFinite] at fb
  obtain ⟨{', '.join(f'c{k}' for k in range(nc))}⟩ := corner_ok{N} build b
{rr}
  exact aff_nonneg{N} {rargs} {' '.join(f'(h {k} (by decide) _ c{k})' for k in range(nc))}
end
/-- **C120** without rounding: if the corners of a box have positive weight, then so have all its points, and the box around the
transformed corners contains the image of every point of the box; it is the smallest box that does. -/
theorem C120_box{N} (t : {T} Ideal) (ht : AllFinite t.forward) (build : Build) (b : {B} Ideal) (hb : AllFinite b) (wb : LeAll b.min b.max)
    (hw : ∀ k : UInt32, k < {nc} → ∀ c, b.corner build k = .ok c → 0 < t.forward.weight c) :
    ∃ B : {B} Ideal, t.around build b = .ok B ∧ AllFinite B ∧ LeAll B.min B.max ∧
      (∀ p, b.isInside p = true → 0 < t.forward.weight p ∧ B.isInside (Transform.transform t p : {P} Ideal) = true) ∧
      (∀ C : {B} Ideal, (∀ p, b.isInside p = true → C.isInside (Transform.transform t p : {P} Ideal) = true) →
        ∀ r, B.isInside r = true → C.isInside r = true) := by
  have fc : ∀ k : UInt32, k < {nc} → ∀ c, b.corner build k = .ok c → AllFinite (Transform.transform t c : {P} Ideal) := fun k hk c hc =>
    ({M}.mulp_aux ht ({B}.fin_inside hb (corner_inside{N} build b wb hk hc)) (hw k hk c hc).ne').1
  have hn' := (corners_iff{N} t build b NoNaN).1 (fun k hk c hc => (fc k hk c hc).noNaN)
  obtain ⟨w, hin, hmin⟩ := C27_points{N} (corners{N} t b) (by simp [corners{N}]) hn'
  obtain ⟨B, e1, f1⟩ := C95_finite{N} t build b fc
  have eB := Except.ok.inj (e1.symm.trans (around_eq{N} t build b))
  rw [← eB] at w hin hmin
  have hin' := (corners_iff{N} t build b (fun q => B.isInside q = true)).2 hin
  have PW : ∀ p, b.isInside p = true → 0 < t.forward.weight p := by
    intro p hi
    have := {B}.aff_pos hb build hi (t.forward.toReal {L}) (fun k hk q hq => by
      have := hw k hk q hq
      rw [{M}.weight, {M}.mulVec_lin] at this; exact this)
    rw [{M}.weight, {M}.mulVec_lin]; exact this
  have up : ∀ (C : ℝ) (i : Fin {N}), (∀ k : UInt32, k < {nc} → ∀ c, b.corner build k = .ok c → (Transform.transform t c : {P} Ideal).toReal i ≤ C) →
      ∀ p, b.isInside p = true → (Transform.transform t p : {P} Ideal).toReal i ≤ C := by
    intro C i hC p hi
    have := {B}.aff_nonneg hb build hi (fun j => C * t.forward.toReal {L} j - t.forward.toReal i.castSucc j) (fun k hk q hq => by
      have h1 := hC k hk q hq
      change (t.forward * q).toReal i ≤ C at h1
      rw [({M}.mulp_aux ht ({B}.fin_inside hb (corner_inside{N} build b wb hk hq)) (hw k hk q hq).ne').2,
        div_le_iff₀ (hw k hk q hq), {M}.weight, {M}.mulVec_lin, {M}.mulVec_lin] at h1
      linarith)
    change (t.forward * p).toReal i ≤ C
    rw [({M}.mulp_aux ht ({B}.fin_inside hb hi) (PW p hi).ne').2, div_le_iff₀ (PW p hi), {M}.weight, {M}.mulVec_lin, {M}.mulVec_lin]
    linarith
  have low : ∀ (C : ℝ) (i : Fin {N}), (∀ k : UInt32, k < {nc} → ∀ c, b.corner build k = .ok c → C ≤ (Transform.transform t c : {P} Ideal).toReal i) →
      ∀ p, b.isInside p = true → C ≤ (Transform.transform t p : {P} Ideal).toReal i := by
    intro C i hC p hi
    have := {B}.aff_nonneg hb build hi (fun j => t.forward.toReal i.castSucc j - C * t.forward.toReal {L} j) (fun k hk q hq => by
      have h1 := hC k hk q hq
      change C ≤ (t.forward * q).toReal i at h1
      rw [({M}.mulp_aux ht ({B}.fin_inside hb (corner_inside{N} build b wb hk hq)) (hw k hk q hq).ne').2,
        le_div_iff₀ (hw k hk q hq), {M}.weight, {M}.mulVec_lin, {M}.mulVec_lin] at h1
      linarith)
    change C ≤ (t.forward * p).toReal i
    rw [({M}.mulp_aux ht ({B}.fin_inside hb hi) (PW p hi).ne').2, le_div_iff₀ (PW p hi), {M}.weight, {M}.mulVec_lin, {M}.mulVec_lin]
    linarith
  have cin : ∀ k : UInt32, k < {nc} → ∀ c, b.corner build k = .ok c → ∀ i : Fin {N},
      B.min.toReal i ≤ (Transform.transform t c : {P} Ideal).toReal i ∧ (Transform.transform t c : {P} Ideal).toReal i ≤ B.max.toReal i := by
    intro k hk c hc
    have h := hin' k hk c hc
    rw [{B}.inside_real f1 (fc k hk c hc)] at h
    exact h
  refine ⟨B, e1, f1, w, fun p hi => ⟨PW p hi, ?_⟩, fun C hC => ?_⟩
  · change B.isInside (t.forward * p) = true
    rw [{B}.inside_real f1 ({M}.mulp_aux ht ({B}.fin_inside hb hi) (PW p hi).ne').1]
    intro i
    exact ⟨low _ i (fun k hk c hc => (cin k hk c hc i).1) p hi, up _ i (fun k hk c hc => (cin k hk c hc i).2) p hi⟩
  · exact hmin C ((corners_iff{N} t build b (fun q => C.isInside q = true)).1 fun k hk c hc => hC c (corner_inside{N} build b wb hk hc))
"""
    return o
head="""import Verif.Props.RealFoot
import Verif.Props.RealMatrix
import Verif.Props.FloatCorners
import Verif.Props.RealTransform
/-!
# Perspective transforms in exact real arithmetic (layer R): C120

Matrices whose last row is not `0 .. 0 1`. (Generated by tools/gen/persp_real.py.)
-/

namespace VecMath
open Scalar IEEE

theorem proj_mix {n d w e s : ℝ} (h0 : w ≠ 0) (h1 : w + e ≠ 0) (h2 : w + s * e ≠ 0) :
    n / w + s * (w + e) / (w + s * e) * ((n + d) / (w + e) - n / w) = (n + s * d) / (w + s * e) := by
  field_simp; ring
theorem proj_pos {s a b : ℝ} (h0 : 0 ≤ s) (h1 : s ≤ 1) (ha : 0 < a) (hb : 0 < b) : 0 < (1 - s) * a + s * b := by
  rcases eq_or_lt_of_le h0 with h | h
  · rw [← h]; simpa using ha
  · have := mul_pos h hb
    have := mul_nonneg (sub_nonneg.2 h1) ha.le
    linarith
theorem lin_end {c l u x : ℝ} (h0 : l ≤ x) (h1 : x ≤ u) : c * l ≤ c * x ∨ c * u ≤ c * x := by
  rcases le_total 0 c with h | h
  · exact .inl (mul_le_mul_of_nonneg_left h0 h)
  · exact .inr (mul_le_mul_of_nonpos_left h1 h)
"""
open(sys.argv[1],"w").write(head+base+gen(2)+gen(3)+persp_ray.body()+"\nend VecMath\n")

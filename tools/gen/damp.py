L=[]
w=L.append
w('''import Verif.Lemmas.Damp
import Verif.Props.FloatMono
import Verif.Props.FloatAxis
/-!
# Layer F: histories of `*=` and `/=` (C100)
-/

open Classical

namespace VecMath
open Scalar IEEE

section
variable {S : Type} [Scalar S] [IEEE S] [Binary S] {x : S} {l : List (Factor S)}
theorem rescale_zero (hx : IsFinite x) (h0 : real x = 0) (h : ∀ f ∈ l, f.Ok) : IsFinite (rescale x l) ∧ real (rescale x l) = 0 := by
  induction l generalizing x with
  | nil => exact ⟨hx, h0⟩
  | cons f l ih =>
    have hf := h f (by simp)
    obtain ⟨h1, h2⟩ := Factor.step hx hf (by rw [h0, zero_mul, abs_zero, ← real_zero (S := S)]; exact (le_abs_self _).trans_lt (finite_lt_overflow finite_zero))
    rw [h0, zero_mul, (Binary.F S).rnd_zero] at h2
    exact ih h1 h2 (fun g hg => h g (by simp [hg]))
theorem rescale_exact' (hx : IsFinite x) (h : ∀ f ∈ l, f.Ok ∧ ∃ j : ℤ, f.exact = 2 ^ j)
    (hr : real x = 0 ∨ ∀ l', l' <+: l → l' ≠ [] → minNormal S ≤ |real x * total l'| ∧ |real x * total l'| < overflowAt S) :
    Exactly (rescale x l) (real x * total l) := by
  rcases hr with h0 | hr
  · have := rescale_zero hx h0 (fun f hf => (h f hf).1)
    rw [h0, zero_mul]
    exact this
  · exact rescale_exact hx h hr
theorem abs_rescale_le (hx : IsFinite x) (h : ∀ f ∈ l, f.Ok ∧ |f.exact| ≤ 1) : (Scalar.abs (rescale x l) ≤? Scalar.abs x) = true := by
  obtain ⟨h1, h2⟩ := rescale_shrinks hx h
  rwa [le_iff_real (finite_abs.2 h1) (finite_abs.2 hx), real_abs, real_abs]
end
''')
def typ(T,n,kind):
    mat = kind=='mat'
    if mat:
        N=n*n
        b=f'(k : ℕ) (hk : k < {N})'; q=f'∀ (k : ℕ) (hk : k < {N}), '
        c=lambda v: f'{v}.m[k]'
        args='k hk'
        fin=f'({T}.allFinite.1 hv k hk)'
    else:
        b=f'(d : Dimension{n})'; q='∀ d, '
        c=lambda v: f'{v}.index d'
        args='d'
        fin=f'(fin_{T} hv d)'
    V='v.rescale l'
    cv=c('v'); cr=c(f'({V})')
    w(f'section\nvariable {{S : Type}} [Scalar S]')
    if mat:
        w(f'''theorem rescale_index_{T} (v : {T} S) (l : List (Factor S)) {b} : {cr} = rescale ({cv}) l := by
  induction l generalizing v with
  | nil => rfl
  | cons f l ih =>
    cases f with
    | times s =>
      have := ih (v.mulAssign s)
      rw [show (v.mulAssign s).m[k] = v.m[k] * s from Vector.getElem_map _ _] at this
      exact this
    | over s =>
      have := ih (v.divAssign s)
      rw [show (v.divAssign s).m[k] = v.m[k] / s from Vector.getElem_map _ _] at this
      exact this''')
    else:
        w(f'''theorem rescale_index_{T} (v : {T} S) (l : List (Factor S)) {b} : {cr} = rescale ({cv}) l := by
  induction l generalizing v with
  | nil => rfl
  | cons f l ih =>
    cases f with
    | times s => refine (ih (v.mulAssign s)).trans ?_; cases d <;> rfl
    | over s => refine (ih (v.divAssign s)).trans ?_; cases d <;> rfl''')
    w('variable [IEEE S]')
    if not mat:
        hs=['hv.1','hv.2'] if n==2 else ['hv.1','hv.2.1','hv.2.2']
        w(f'''theorem fin_{T} {{v : {T} S}} (hv : AllFinite v) (d : Dimension{n}) : IsFinite (v.index d) := by
  rw [{T}.allFinite] at hv
  cases d
  exacts [{', '.join(hs)}]''')
    w(f'''variable [Binary S] (v : {T} S) (l : List (Factor S)) (hv : AllFinite v)
include hv
/-- **C100**, `{T}`: factors of at most 1 in magnitude never let a component grow, and never produce anything but finite
numbers. -/
theorem C100_shrinks_{T} (h : ∀ f ∈ l, f.Ok ∧ |f.exact| ≤ 1) {b} :
    IsFinite ({cr}) ∧ (Scalar.abs ({cr}) ≤? Scalar.abs ({cv})) = true := by
  rw [rescale_index_{T}]
  exact ⟨(rescale_shrinks {fin} h).1, abs_rescale_le {fin} h⟩
/-- **C100**, `{T}`: factors above one half never extinguish a component: it stays positive, or negative, for ever. -/
theorem C100_keeps_{T} (h : ∀ f ∈ l, f.Ok ∧ 1 / 2 < f.exact ∧ f.exact ≤ 1) {b} :
    (0 < real ({cv}) → 0 < real ({cr})) ∧ (real ({cv}) < 0 → real ({cr}) < 0) := by
  rw [rescale_index_{T}]
  exact rescale_keeps {fin} h
/-- **C100**, `{T}`: damping by the same factor between one half and 1 ends in a value that does not change any more. -/
theorem C100_stuck_{T} (f : Factor S) (hf : f.Ok) (h1 : 1 / 2 < f.exact) (h2 : f.exact ≤ 1) :
    ∃ N, ∀ n, N ≤ n → {q}real ({c('(v.rescale (List.replicate n f))')}) = real ({c('(v.rescale (List.replicate N f))')}) := by''')
    if mat:
        w(f'''  have H : ∀ k : Fin {N}, ∃ M, ∀ n, M ≤ n → real (rescale v.m[k.val] (List.replicate n f)) = real (rescale v.m[k.val] (List.replicate M f)) :=
    fun k => rescale_stuck ({T}.allFinite.1 hv k.val k.isLt) hf h1 h2
  choose M hM using H
  refine ⟨Finset.univ.sup M, fun n hn k hk => ?_⟩
  have hle : M ⟨k, hk⟩ ≤ Finset.univ.sup M := Finset.le_sup (f := M) (Finset.mem_univ _)
  rw [rescale_index_{T}, rescale_index_{T}]
  exact (hM ⟨k, hk⟩ n (hle.trans hn)).trans (hM ⟨k, hk⟩ _ hle).symm''')
    else:
        dims='XYZ'[:n]
        w(f'''  have H : ∀ d, ∃ M, ∀ n, M ≤ n → real (rescale (v.index d) (List.replicate n f)) = real (rescale (v.index d) (List.replicate M f)) :=
    fun d => rescale_stuck (fin_{T} hv d) hf h1 h2
  choose M hM using H
  refine ⟨{' + '.join('M .'+x for x in dims)}, fun n hn d => ?_⟩
  have hle : M d ≤ {' + '.join('M .'+x for x in dims)} := by cases d <;> omega
  rw [rescale_index_{T}, rescale_index_{T}]
  exact (hM d n (hle.trans hn)).trans (hM d _ hle).symm''')
    w(f'''/-- **C100**, `{T}`: factors of at most one half extinguish every component after `emax - emin + 1` updates. -/
theorem C100_vanishes_{T} (h : ∀ f ∈ l, f.Ok ∧ |f.exact| ≤ 1 / 2)
    (hl : (Binary.F S).emax - (Binary.F S).emin + 1 ≤ l.length) {b} : ({cr} == zero) = true := by
  rw [rescale_index_{T}]
  exact isZero_iff.1 (rescale_vanishes {fin} h (k := (Binary.F S).emax) (by have := Fl.bound (Binary.F S); omega)
    (inFormat {fin}).2.le hl)
/-- **C100**, `{T}`: powers of two are exact as long as the exact value is in range. -/
theorem C100_exact_{T} (h : ∀ f ∈ l, f.Ok ∧ ∃ j : ℤ, f.exact = 2 ^ j) {b}
    (hr : real ({cv}) = 0 ∨ ∀ l', l' <+: l → l' ≠ [] →
      minNormal S ≤ |real ({cv}) * total l'| ∧ |real ({cv}) * total l'| < overflowAt S) :
    Exactly ({cr}) (real ({cv}) * total l) := by
  rw [rescale_index_{T}]
  exact rescale_exact' {fin} h hr
/-- **C100**, `{T}`: there and back by powers of two. -/
theorem C100_back_{T} (h : ∀ f ∈ l, f.Ok ∧ ∃ j : ℤ, f.exact = 2 ^ j) (ht : total l = 1)
    (hr : {q}real ({cv}) = 0 ∨ ∀ l', l' <+: l → l' ≠ [] →
      minNormal S ≤ |real ({cv}) * total l'| ∧ |real ({cv}) * total l'| < overflowAt S) :
    (v.rescale l == v) = true := by
  have H : {q}(({cr}) == {cv}) = true := by
    intro {args}
    have := C100_exact_{T} v l hv h {args} (hr {args})
    rw [ht, mul_one] at this
    exact beq_iff.2 ⟨this.1.not_nan, {fin}.not_nan, by rw [this.1.val, {fin}.val, this.2]⟩''')
    if mat: w(f'  exact {T}.beq_iff.2 H')
    else: w(f"  exact {T}.beq_iff.2 ⟨{', '.join('H .'+x for x in 'XYZ'[:n])}⟩")
    w(f'''/-- **C100**, `{T}`: without underflow and overflow, `n` updates lead to the exact product but for a factor between
`(1 + u)^-n` and `(1 - u)^-n`. -/
theorem C100_accurate_{T} (h : ∀ f ∈ l, f.Ok) {b}
    (hr : ∀ l', l' <+: l → l' ≠ [] → IsFinite ({c("(v.rescale l')")}) ∧ minNormal S ≤ |real ({c("(v.rescale l')")})|) :
    ∃ θ : ℝ, real ({cr}) = θ * (real ({cv}) * total l) ∧ 1 / (1 + uro S) ^ l.length ≤ θ ∧ θ ≤ 1 / (1 - uro S) ^ l.length := by
  simp only [rescale_index_{T}] at hr ⊢
  exact rescale_accurate {fin} h hr''')
    if T.startswith('Vector'):
        w(f'''/-- **C100**, `{T}`: factors of at most 1 in magnitude never let the computed length grow. -/
theorem C100_length_{T} (h : ∀ f ∈ l, f.Ok ∧ |f.exact| ≤ 1) : (Api.length (v.rescale l) ≤? Api.length v) = true := by
  refine C69_length{n} _ _ ({T}.leAll.2 ?_)
  exact ⟨{', '.join(f'(C100_shrinks_{T} v l hv h .{x}).2' for x in 'XYZ'[:n])}⟩''')
    w('end\n')
for T,n,k in [('Vector2',2,'v'),('Vector3',3,'v'),('Point2',2,'v'),('Point3',3,'v'),('Matrix3x3',3,'mat'),('Matrix4x4',4,'mat')]:
    typ(T,n,k)
w('end VecMath')
open('/verif/lean/Verif/Props/FloatDamp.lean','w').write('\n'.join(L)+'\n')

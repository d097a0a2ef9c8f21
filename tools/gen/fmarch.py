out=[]
A=out.append
A('''import Verif.Spec.March
import Verif.Props.FloatShadow
import Verif.Props.FloatFrame
import Verif.Lemmas.Perturb
/-! # C127: sphere tracing -/

namespace VecMath
open Scalar IEEE
''')
for k in '23':
    B=f'Ball{k}'; P=f'Point{k}'; V=f'Vector{k}'; R=f'Ray{k}'
    A(f'''/-! ## Dimension {k} -/
section
variable {{S : Type}} [Scalar S]
/-- **C127**: a march that stands still stays where it is. -/
theorem C127_stay{k} (r : {R} S) (balls : List ({B} S)) (n : ℕ) (h : r.march balls (n + 1) = r.march balls n) (j : ℕ) : r.march balls (n + j) = r.march balls n := by
  induction j with
  | zero => rfl
  | succ j ih =>
    rw [← add_assoc]
    exact (show r.march balls (n + j + 1) = r.march balls (n + j) + {B}.clearance balls (r.at (r.march balls (n + j))) from rfl).trans (by rw [ih]; exact h)
end
section
variable {{S : Type}} [Scalar S] [IEEE S]
/-- **C127**: the clearance is the least of the computed distances. -/
theorem C127_least{k} (balls : List ({B} S)) (p : {P} S) (h0 : balls ≠ []) (h : ∀ b ∈ balls, IsFinite (Api.distance b.center p - b.radius)) :
    IsFinite ({B}.clearance balls p) ∧ (∀ b ∈ balls, ({B}.clearance balls p ≤? Api.distance b.center p - b.radius) = true) ∧
      ∃ b ∈ balls, ({B}.clearance balls p == Api.distance b.center p - b.radius) = true := by
  obtain ⟨a, b, d, hd, c⟩ := lowest_real (ds := balls.map fun b => Api.distance b.center p - b.radius) (by simpa using h0) (by
    intro d hd
    obtain ⟨b, h', rfl⟩ := List.mem_map.1 hd
    exact h b h')
  refine ⟨a, fun b' h' => (ole_real' a (h b' h')).2 (b _ (List.mem_map.2 ⟨b', h', rfl⟩)), ?_⟩
  obtain ⟨b', h', rfl⟩ := List.mem_map.1 hd
  refine ⟨b', h', IEEE.beq_iff.2 ⟨a.not_nan, (h b' h').not_nan, ?_⟩⟩
  rw [(h b' h').val, ← c]
  exact a.val
/-- **C127**: if `E` bounds the rounding errors of the computed distances, no ball has a point within the computed clearance less `E`. -/
theorem C127_sphere{k} (balls : List ({B} S)) (p : {P} S) (E : ℝ) (h : ∀ b ∈ balls, IsFinite (Api.distance b.center p - b.radius))
    (hE : ∀ b ∈ balls, |real (Api.distance b.center p - b.radius) - (norm2 (p.toReal - b.center.toReal) - real b.radius)| ≤ E) (y : Fin {k} → ℝ)
    (hy : norm2 (y - p.toReal) ≤ real ({B}.clearance balls p) - E) : ∀ b ∈ balls, real b.radius ≤ norm2 (y - b.center.toReal) := by
  intro b hb
  have h0 : balls ≠ [] := List.ne_nil_of_mem hb
  obtain ⟨a, l, -⟩ := C127_least{k} balls p h0 h
  have l := (ole_real' a (h b hb)).1 (l b hb)
  have e := (abs_le.1 (hE b hb)).2
  have t := norm2_le_add (p.toReal - b.center.toReal) (y - b.center.toReal)
  have s : norm2 (p.toReal - b.center.toReal - (y - b.center.toReal)) = norm2 (y - p.toReal) := by
    rw [sub_sub_sub_cancel_right]
    exact norm2_sub_comm _ _
  linarith
end
section
variable {{S : Type}} [Scalar S] [IEEE S] [Binary S]
/-- **C127**: outside the balls no step goes back. -/
theorem C127_forward{k} (r : {R} S) (balls : List ({B} S)) (n : ℕ) (h : IsFinite (r.march balls (n + 1)))
    (hc : (zero ≤? {B}.clearance balls (r.at (r.march balls n))) = true) : (r.march balls n ≤? r.march balls (n + 1)) = true := by
  have f := finite_of_add (S := S) (a := r.march balls n) (b := {B}.clearance balls (r.at (r.march balls n))) h
  refine (ole_real' f.1 h).2 (le_add_right_real h ?_)
  rw [← real_zero (S := S)]
  exact (ole_real' finite_zero f.2).1 hc
end
''')
A('end VecMath')
s='\n'.join(out)
open('/tmp/d/FloatMarch.lean','w').write(s)

"""Generates Verif/Props/FloatCurve.lean (from the hand-written head /tmp/w/curve_base.lean) and Verif/Props/RealCurve.lean (C118)."""
import sys
base=open('/tmp/w/curve_base.lean').read()
base=base.rsplit("end VecMath",1)[0]
def tail(d):
    cs="xyz"[:d]; D=str(d)
    con=lambda f,sep=", ": sep.join(f(c) for c in cs)
    P=f"Point{D}"
    split_fin=f"rw [{P}.allFinite] at hf ⊢" 
    out=f"""
/-- **C118**: the computed point of a curve is close to the Bézier curve. -/
theorem C118_error{D} (c : ℕ → {P} S) (n : ℕ) (t : S) (M : ℝ) (h0 : (zero ≤? t) = true) (h1 : (t ≤? one) = true)
    (hf : AllFinite ({P}.curve c n t)) (hM : ∀ j ≤ n, ∀ i, |(c j).toReal i| ≤ M) (i : Fin {d}) :
    |({P}.curve c n t).toReal i - bezier (fun j => (c j).toReal i) n (real t)| ≤ curveErr S n M := by
  obtain ⟨-, r0, r1⟩ := unit_real h0 h1
  rw [{P}.allFinite] at hf
  rw [← casteljau_bezier]
  unfold {P}.curve at *
  rw [{con(lambda c: f"curve_{c}{D}")}] at hf
  have k := fun (f : {P} S → S) (h : IsFinite (casteljau (mix1 t) (fun j => f (c j)) n 0)) (hM : ∀ j ≤ n, |real (f (c j))| ≤ M) =>
    (casteljau_err r0 r1 n 0 h fun j _ q => hM j (by omega)).2
  fin_cases i
"""
    acc=["hf.1","hf.2"] if d==2 else ["hf.1","hf.2.1","hf.2.2"]
    for j,c in enumerate(cs):
        out+=f"  · show |real (casteljau ({P}.mix t) c n 0).{c} - casteljau _ (fun j => real (c j).{c}) n 0| ≤ _\n    rw [curve_{c}{D}]; exact k (·.{c}) {acc[j]} fun j q => hM j q {j}\n"
    out+=f"""/-- **C118**: if the control points are not too large, nothing overflows. -/
theorem C118_finite{D} (c : ℕ → {P} S) (n : ℕ) (t : S) (M : ℝ) (h0 : (zero ≤? t) = true) (h1 : (t ≤? one) = true)
    (hf : ∀ j ≤ n, AllFinite (c j)) (hM : ∀ j ≤ n, ∀ i, |(c j).toReal i| ≤ M) (hO : 3 * (M + curveErr S n M) < overflowAt S) :
    AllFinite ({P}.curve c n t) := by
  obtain ⟨ft, r0, r1⟩ := unit_real h0 h1
  have hO' : 3 * rowSize S M n < overflowAt S := by
    have : M + curveErr S n M = rowSize S M n := by unfold curveErr rowSize; ring
    rwa [← this]
  unfold {P}.curve
  rw [{P}.allFinite, {con(lambda c: f"curve_{c}{D}")}]
  have k := fun (f : {P} S → S) (h : ∀ j ≤ n, IsFinite (f (c j))) (hM : ∀ j ≤ n, |real (f (c j))| ≤ M) =>
    casteljau_finite (c := fun j => f (c j)) ft r0 r1 n 0 (fun j _ q => h j (by omega)) (fun j _ q => hM j (by omega)) hO'
  simp only [{P}.allFinite] at hf
  exact ⟨{", ".join(f"k (·.{c}) (fun j q => (hf j q)"+["",""][0]+(f".{j+1}" if d==2 else [".1",".2.1",".2.2"][j])+f") fun j q => hM j q {j}" for j,c in enumerate(cs))}⟩
/-- **C118**: every curve starts in its first control point, if the steps between the control points do not overflow. -/
theorem C118_start{D} (c : ℕ → {P} S) (n : ℕ) (t : S) (ht : (t == zero) = true) (h : AllFinite (c 0)) (hd : ∀ j < n, AllFinite (c (j + 1) - c j)) :
    ({P}.curve c n t == c 0) = true := by
  rw [{P}.allFinite] at h
  simp only [Vector{D}.allFinite] at hd
  have k := fun (f : {P} S → S) (hd : ∀ j < n, IsFinite (f (c (j + 1)) - f (c j))) =>
    casteljau_start (c := fun j => f (c j)) hd (num_of_beq ht) n 0 (by omega)
  refine {P}.beq_of_num ?_ ({P}.noNaN.2 ⟨{", ".join("h"+(f".{j+1}" if d==2 else [".1",".2.1",".2.2"][j])+".not_nan" for j in range(d))}⟩)
  unfold {P}.curve
  rw [{con(lambda c: f"curve_{c}{D}")}]
  exact ⟨{", ".join(f"k (·.{c}) fun j q => (hd j q)"+(f".{j+1}" if d==2 else [".1",".2.1",".2.2"][j]) for j,c in enumerate(cs))}⟩
/-- **C118**: a curve ends in its last control point, if stepping from each control point to the next arrives there. -/
theorem C118_end{D} (c : ℕ → {P} S) (n : ℕ) (t : S) (ht : (t == one) = true) (h : NoNaN (c n))
    (hd : ∀ j < n, (c j + (c (j + 1) - c j) == c (j + 1)) = true) : ({P}.curve c n t == c n) = true := by
  have hd' := fun j q => {P}.num_of_beq (hd j q)
  have k := fun (f : {P} S → S) (hd : ∀ j < n, num (f (c j) + (f (c (j + 1)) - f (c j))) = num (f (c (j + 1)))) =>
    (casteljau_end (c := fun j => f (c j)) hd (num_of_beq ht) n 0 (by omega)).trans (by rw [Nat.zero_add])
  refine {P}.beq_of_num ?_ h
  unfold {P}.curve
  rw [{con(lambda c: f"curve_{c}{D}")}]
  exact ⟨{", ".join(f"k (·.{c}) fun j q => (hd' j q)"+(f".{j+1}" if d==2 else [".1",".2.1",".2.2"][j]) for j,c in enumerate(cs))}⟩
/-- **C118**: interpolation stays inside every box that holds the first point and the point computed for `1`. -/
theorem C118_between{D} (p q : {P} S) (hp : AllFinite p) (hd : AllFinite (q - p)) (t : S) (h0 : (zero ≤? t) = true) (h1 : (t ≤? one) = true)
    (b : BoundingBox{D} S) (bp : b.isInside p = true) (bq : b.isInside ({P}.mix one p q) = true) : b.isInside ({P}.mix t p q) = true := by
  obtain ⟨ft, -⟩ := unit_real h0 h1
  have hr : AllFinite (Ray{D}.new p (q - p)) := Ray{D}.allFinite.2 ⟨hp, hd⟩
  refine C88_convex{D} (Ray{D}.new p (q - p)) hr b zero t one finite_zero ft finite_one h0 h1 ?_ bq
  have e : (({P}.mix zero p q) == p) = true :=
    C118_start{D} (fun j => if j = 0 then p else q) 1 zero (beq_self_iff.2 finite_zero.not_nan) (by simpa using hp) (fun j hj => by
      obtain rfl : j = 0 := by omega
      simpa using hd)
  obtain ⟨{con(lambda c: "e"+c)}⟩ := {P}.num_of_beq e
  have : b.isInside ({P}.mix zero p q) = b.isInside p := by
    simp only [BoundingBox{D}.isInside, {con(lambda c: f"le_congr rfl e{c}, le_congr e{c} rfl")}]
  exact this.trans bp
/-- **C118**: if the second point is reached without rounding, interpolation stays between the two points. -/
theorem C118_segment{D} (p q : {P} S) (hp : AllFinite p) (hd : AllFinite (q - p)) (hq : (p + (q - p) == q) = true) (t : S)
    (h0 : (zero ≤? t) = true) (h1 : (t ≤? one) = true) (b : BoundingBox{D} S) (bp : b.isInside p = true) (bq : b.isInside q = true) :
    b.isInside ({P}.mix t p q) = true := by
  refine C118_between{D} p q hp hd t h0 h1 b bp ?_
  obtain ⟨{con(lambda c: "e"+c)}⟩ := {P}.num_of_beq hq
  have k : ∀ x y : S, num (x + (y - x)) = num y → num (x + (y - x) * one) = num y := fun x y h => (num_add_congr rfl (IEEE.num_mul_one _)).trans h
  have : b.isInside ({P}.mix one p q) = b.isInside q := by
{chr(10).join(f"    have k{c} : num ({P}.mix one p q).{c} = num q.{c} := k _ _ e{c}" for c in cs)}
    simp only [BoundingBox{D}.isInside, {con(lambda c: f"le_congr rfl k{c}, le_congr k{c} rfl")}]
  exact this.trans bq
/-- **C118**: on data with few bits, at a parameter `j / 2^m`, nothing is rounded, and the point is inside every box that holds the control points. -/
theorem C118_grid{D} (c : ℕ → {P} S) (n : ℕ) (t : S) (e : ℤ) (m N : ℕ) (hN : 0 < N) (h0 : (zero ≤? t) = true) (ht : IsFinite t)
    (gt : OnGrid (-(m : ℤ)) (2 ^ m) (real t)) (hf : ∀ j ≤ n, AllFinite (c j)) (gc : ∀ j ≤ n, ∀ i, OnGrid e N ((c j).toReal i))
    (hF : Fits S (e - m * n) (3 * (2 ^ (m * n) * N))) (he : Fits S e N) :
    AllFinite ({P}.curve c n t) ∧ (∀ i, ({P}.curve c n t).toReal i = bezier (fun j => (c j).toReal i) n (real t)) ∧
    ∀ b : BoundingBox{D} S, (∀ j ≤ n, b.isInside (c j) = true) → b.isInside ({P}.curve c n t) = true := by
  have r0 : 0 ≤ real t := by have := (le_fin finite_zero ht).1 h0; rwa [real_zero] at this
  simp only [{P}.allFinite] at hf
  have k := fun (f : {P} S → S) (hf : ∀ j ≤ n, IsFinite (f (c j))) (gc : ∀ j ≤ n, OnGrid e N (real (f (c j)))) =>
    (casteljau_grid (c := fun j => f (c j)) hN (.of ht gt) r0 hF he.2.2 n 0 le_rfl fun j _ q => .of (hf j (by omega)) (gc j (by omega))).ex
  have r1 : real t ≤ 1 := by
    obtain ⟨q, hq, e⟩ := gt
    rw [e, zpow_neg, zpow_natCast, ← div_eq_mul_inv, div_le_one (by positivity)]
    have : (q : ℝ) ≤ ((2 ^ m : ℕ) : ℝ) := by exact_mod_cast (le_abs_self q).trans hq
    simpa using this
"""
    for j,c in enumerate(cs):
        out+=f"  have k{c} := k (·.{c}) (fun j q => (hf j q)"+(f".{j+1}" if d==2 else [".1",".2.1",".2.2"][j])+f") fun j q => gc j q {j}\n  rw [← curve_{c}{D}, casteljau_bezier] at k{c}\n"
    out+=f"""  refine ⟨{P}.allFinite.2 ⟨{con(lambda c: f"k{c}.1")}⟩, ?_, ?_⟩
  · intro i
    fin_cases i
    exacts [{con(lambda c: f"k{c}.2")}]
  · intro b hb
    simp only [isInside{D}_iff] at hb ⊢
    exact ⟨{", ".join(f"in_bezier r0 r1 (fun j q => (hf j q)"+(f".{j+1}" if d==2 else [".1",".2.1",".2.2"][j])+f") k{c}.1 k{c}.2 fun j q => (hb j q)"+(f".{j+1}" if d==2 else [".1",".2.1",".2.2"][j]) for j,c in enumerate(cs))}⟩
"""
    return out
mid="""
section
variable {S : Type} [Scalar S] [IEEE S]

theorem unit_real {t : S} (h0 : (zero ≤? t) = true) (h1 : (t ≤? one) = true) : IsFinite t ∧ 0 ≤ real t ∧ real t ≤ 1 := by
  have f := finite_btw finite_zero finite_one h0 h1
  have a := (le_fin finite_zero f).1 h0
  have b := (le_fin f finite_one).1 h1
  rw [real_zero] at a
  rw [real_one] at b
  exact ⟨f, a, b⟩
theorem Point2.num_of_beq {p q : Point2 S} (h : (p == q) = true) : num p.x = num q.x ∧ num p.y = num q.y := by
  rw [Point2.beq_iff] at h
  exact ⟨IEEE.num_of_beq h.1, IEEE.num_of_beq h.2⟩
theorem Point3.num_of_beq {p q : Point3 S} (h : (p == q) = true) : num p.x = num q.x ∧ num p.y = num q.y ∧ num p.z = num q.z := by
  rw [Point3.beq_iff] at h
  exact ⟨IEEE.num_of_beq h.1, IEEE.num_of_beq h.2.1, IEEE.num_of_beq h.2.2⟩
theorem Point2.beq_of_num {p q : Point2 S} (h : num p.x = num q.x ∧ num p.y = num q.y) (n : NoNaN q) : (p == q) = true := by
  rw [Point2.noNaN] at n
  rw [Point2.beq_iff]
  exact ⟨beq_of_num' h.1 n.1, beq_of_num' h.2 n.2⟩
theorem Point3.beq_of_num {p q : Point3 S} (h : num p.x = num q.x ∧ num p.y = num q.y ∧ num p.z = num q.z) (n : NoNaN q) : (p == q) = true := by
  rw [Point3.noNaN] at n
  rw [Point3.beq_iff]
  exact ⟨beq_of_num' h.1 n.1, beq_of_num' h.2.1 n.2.1, beq_of_num' h.2.2 n.2.2⟩
/-- A point of the curve lies between bounds on the control points. -/
theorem in_bezier {c : ℕ → S} {n : ℕ} {x : ℝ} {r lo hi : S} (x0 : 0 ≤ x) (x1 : x ≤ 1) (hf : ∀ j ≤ n, IsFinite (c j)) (hr : IsFinite r)
    (e : real r = bezier (fun j => real (c j)) n x) (h : ∀ j ≤ n, In1 lo hi (c j)) : In1 lo hi r := by
  obtain ⟨i, hi', mi⟩ := Finset.exists_min_image (Finset.range (n + 1)) (fun j => real (c j)) ⟨0, by simp⟩
  obtain ⟨k, hk, mk⟩ := Finset.exists_max_image (Finset.range (n + 1)) (fun j => real (c j)) ⟨0, by simp⟩
  have hi'' : i ≤ n := by simpa [Nat.lt_succ_iff] using hi'
  have hk' : k ≤ n := by simpa [Nat.lt_succ_iff] using hk
  have B := bezier_between (c := fun j => real (c j)) (n := n) (lo := real (c i)) (hi := real (c k)) x0 x1 fun j q =>
    ⟨mi j (by simpa [Nat.lt_succ_iff] using q), mk j (by simpa [Nat.lt_succ_iff] using q)⟩
  rw [← e] at B
  exact ⟨le_trans' (h i hi'').1 ((le_fin (hf i hi'') hr).2 B.1), le_trans' ((le_fin hr (hf k hk')).2 B.2) (h k hk').2⟩
end

section
variable {S : Type} [Scalar S] [IEEE S] [Binary S]
"""
open('/tmp/d/p118/FloatCurve.lean','w').write(base.replace("import Verif.Props.FloatRayMono","import Verif.Props.FloatCorners\nimport Verif.Props.FloatRayMono")+mid+tail(2)+tail(3)+"end\n\nend VecMath\n")
def real(d):
    cs="xyz"[:d]; D=str(d); P=f"Point{D}"; M="Matrix3x3" if d==2 else "Matrix4x4"
    con=lambda f,sep=", ": sep.join(f(c) for c in cs)
    ac=lambda b,j: b+(f".{j+1}" if d==2 else [".1",".2.1",".2.2"][j])
    return f"""
/-- **C118** without rounding: the scheme computes the Bézier curve. -/
theorem C118_real{D} (c : ℕ → {P} Ideal) (n : ℕ) (t : Ideal) (ht : IsFinite t) (hc : ∀ j ≤ n, AllFinite (c j)) :
    AllFinite ({P}.curve c n t) ∧ ∀ i, ({P}.curve c n t).toReal i = bezier (fun j => (c j).toReal i) n (real t) := by
  simp only [{P}.allFinite] at hc
  have k := fun (f : {P} Ideal → Ideal) (hf : ∀ j ≤ n, IsFinite (f (c j))) =>
    casteljau_ideal (c := fun j => f (c j)) ht n 0 (fun j _ q => hf j (by omega))
{chr(10).join(f"  have k{c} := k (·.{c}) (fun j q => {ac('(hc j q)',j)})"+chr(10)+f"  rw [← curve_{c}{D}, casteljau_bezier] at k{c}" for j,c in enumerate(cs))}
  refine ⟨{P}.allFinite.2 ⟨{con(lambda c: f"k{c}.1")}⟩, fun i => ?_⟩
  fin_cases i
  exacts [{con(lambda c: f"k{c}.2")}]
/-- **C118** without rounding: the left edge of the scheme. -/
theorem upTo_real{D} (c : ℕ → {P} Ideal) (n : ℕ) (t : Ideal) (ht : IsFinite t) (hc : ∀ j ≤ n, AllFinite (c j)) (k : ℕ) (hk : k ≤ n) :
    AllFinite ({P}.upTo c t k) ∧ ∀ i, ({P}.upTo c t k).toReal i = casteljau (mixR (real t)) (fun j => (c j).toReal i) k 0 := by
  have h := C118_real{D} c k t ht fun j q => hc j (q.trans hk)
  exact ⟨h.1, fun i => (h.2 i).trans (casteljau_bezier _ _ _).symm⟩
theorem after_real{D} (c : ℕ → {P} Ideal) (n : ℕ) (t : Ideal) (ht : IsFinite t) (hc : ∀ j ≤ n, AllFinite (c j)) (k : ℕ) (hk : k ≤ n) :
    AllFinite ({P}.after c n t k) ∧ ∀ i, ({P}.after c n t k).toReal i = casteljau (mixR (real t)) (fun j => (c j).toReal i) (n - k) k := by
  simp only [{P}.allFinite] at hc
  have k := fun (f : {P} Ideal → Ideal) (hf : ∀ j ≤ n, IsFinite (f (c j))) =>
    casteljau_ideal (c := fun j => f (c j)) ht (n - k) k (fun j _ q => hf j (by omega))
{chr(10).join(f"  have k{c} := k (·.{c}) (fun j q => {ac('(hc j q)',j)})"+chr(10)+f"  rw [← curve_{c}{D}] at k{c}" for j,c in enumerate(cs))}
  refine ⟨{P}.allFinite.2 ⟨{con(lambda c: f"k{c}.1")}⟩, fun i => ?_⟩
  fin_cases i
  exacts [{con(lambda c: f"k{c}.2")}]
/-- **C118** without rounding: the curve lies in every box that holds the control points, and in their convex hull. -/
theorem C118_real_inside{D} (c : ℕ → {P} Ideal) (n : ℕ) (t : Ideal) (h0 : (zero ≤? t) = true) (h1 : (t ≤? one) = true)
    (hc : ∀ j ≤ n, AllFinite (c j)) :
    (∀ b : BoundingBox{D} Ideal, (∀ j ≤ n, b.isInside (c j) = true) → b.isInside ({P}.curve c n t) = true) ∧
    ({P}.curve c n t).toReal ∈ convexHull ℝ {{x | ∃ j ≤ n, x = (c j).toReal}} := by
  obtain ⟨ft, r0, r1⟩ := unit_real h0 h1
  obtain ⟨f, e⟩ := C118_real{D} c n t ft hc
  constructor
  · intro b hb
    simp only [isInside{D}_iff] at hb ⊢
    simp only [{P}.allFinite] at hc f
    exact ⟨{", ".join(f"in_bezier r0 r1 (fun j q => {ac('(hc j q)',j)}) {ac('f',j)} (e {j}) fun j q => {ac('(hb j q)',j)}" for j,c in enumerate(cs))}⟩
  · have : ({P}.curve c n t).toReal = ∑ j ∈ Finset.range (n + 1), ((n.choose j : ℝ) * ((1 - real t) ^ (n - j) * real t ^ j)) • (c j).toReal := by
      funext i
      rw [e i, Finset.sum_apply]
      rfl
    rw [this]
    refine (convex_convexHull ℝ _).sum_mem (fun j _ => weight_nonneg r0 r1 n j) (weight_sum _ n) fun j hj => subset_convexHull ℝ _ ?_
    exact ⟨j, by simpa [Nat.lt_succ_iff] using hj, rfl⟩
/-- **C118** without rounding: transforming the curve by an affine transform is transforming its control points. -/
theorem C118_real_transform{D} (c : ℕ → {P} Ideal) (n : ℕ) (t : Ideal) (ht : IsFinite t) (hc : ∀ j ≤ n, AllFinite (c j))
    (s : Transform{D} Ideal) (hs : AllFinite s.forward) (ha : s.forward.Affine) :
    ((Transform.transform s ({P}.curve c n t) : {P} Ideal) == {P}.curve (fun j => Transform.transform s (c j)) n t) = true := by
  obtain ⟨f, e⟩ := C118_real{D} c n t ht hc
  have g := fun j q => ha.fin_mulp hs (hc j q)
  obtain ⟨f', e'⟩ := C118_real{D} (fun j => (Transform.transform s (c j) : {P} Ideal)) n t ht g
  refine ({P}.beq_toReal (ha.fin_mulp hs f) f').2 ?_
  funext i
  have k : ∀ p : {P} Ideal, AllFinite p → (Transform.transform s p : {P} Ideal).toReal i = ∑ l, s.forward.linear i l * p.toReal l + s.forward.offset i := by
    intro p hp
    show (s.forward * p).toReal i = _
    rw [ha.toReal_mulp hs hp, Pi.add_apply]; rfl
  rw [e']
  refine (k _ f).trans ?_
  simp only [e]
  rw [← bezier_affine]
  exact bezier_congr fun j q => (k _ (hc j q)).symm
/-- **C118** without rounding: the edges of the scheme are the control points of the two parts of the curve. -/
theorem C118_real_split{D} (c : ℕ → {P} Ideal) (n : ℕ) (s t : Ideal) (hs : IsFinite s) (ht : IsFinite t) (hc : ∀ j ≤ n, AllFinite (c j)) :
    ({P}.curve ({P}.upTo c s) n t == {P}.curve c n (s * t)) = true ∧
    ({P}.curve ({P}.after c n s) n t == {P}.curve c n (s + (one - s) * t)) = true := by
  have fm := Ideal.finite_mul hs ht
  have fs := Ideal.finite_sub finite_one hs
  have fa := Ideal.finite_add hs (Ideal.finite_mul fs ht)
  have u := upTo_real{D} c n s hs hc
  have a := after_real{D} c n s hs hc
  constructor
  · obtain ⟨f, e⟩ := C118_real{D} ({P}.upTo c s) n t ht fun j q => (u j q).1
    obtain ⟨f', e'⟩ := C118_real{D} c n (s * t) fm hc
    refine ({P}.beq_toReal f f').2 (funext fun i => ?_)
    rw [e, e', Ideal.real_mul hs ht, mul_comm, ← bezier_upTo]
    exact bezier_congr fun j q => (u j q).2 i
  · obtain ⟨f, e⟩ := C118_real{D} ({P}.after c n s) n t ht fun j q => (a j q).1
    obtain ⟨f', e'⟩ := C118_real{D} c n _ fa hc
    refine ({P}.beq_toReal f f').2 (funext fun i => ?_)
    rw [e, e', Ideal.real_add hs (Ideal.finite_mul fs ht), Ideal.real_mul fs ht, Ideal.real_sub finite_one hs, real_one,
      show real s + (1 - real s) * real t = real s + real t - real t * real s by ring, ← bezier_after]
    exact bezier_congr fun j q => (a j q).2 i
/-- **C118** without rounding: running the control points backwards runs the curve backwards. -/
theorem C118_real_reverse{D} (c : ℕ → {P} Ideal) (n : ℕ) (t : Ideal) (ht : IsFinite t) (hc : ∀ j ≤ n, AllFinite (c j)) :
    ({P}.curve (fun j => c (n - j)) n t == {P}.curve c n (one - t)) = true := by
  have fs := Ideal.finite_sub finite_one ht
  obtain ⟨f, e⟩ := C118_real{D} (fun j => c (n - j)) n t ht fun j _ => hc _ (Nat.sub_le n j)
  obtain ⟨f', e'⟩ := C118_real{D} c n (one - t) fs hc
  refine ({P}.beq_toReal f f').2 (funext fun i => ?_)
  rw [e, e', Ideal.real_sub finite_one ht, real_one]
  exact bezier_reverse (fun j => (c j).toReal i) n (real t)
"""
open('/tmp/d/p118/RealCurve.lean','w').write("""import Verif.Props.FloatCurve
import Verif.Props.RealBox
import Mathlib.Analysis.Convex.Combination
/-! # C118 without rounding -/

open Classical

namespace VecMath
open Scalar IEEE

theorem bezier_congr {c c' : ℕ → ℝ} {n : ℕ} {x : ℝ} (h : ∀ j ≤ n, c j = c' j) : bezier c n x = bezier c' n x :=
  Finset.sum_congr rfl fun j hj => by rw [h j (by simpa [Nat.lt_succ_iff] using hj)]
theorem bezier_reverse (c : ℕ → ℝ) (n : ℕ) (x : ℝ) : bezier (fun j => c (n - j)) n x = bezier c n (1 - x) := by
  unfold bezier
  rw [← Finset.sum_range_reflect]
  refine Finset.sum_congr rfl fun j hj => ?_
  have h : j ≤ n := by simpa [Nat.lt_succ_iff] using hj
  beta_reduce
  rw [show n + 1 - 1 - j = n - j by omega, Nat.choose_symm h, Nat.sub_sub_self h, sub_sub_cancel]
  ring
theorem casteljau_ideal {t : Ideal} {c : ℕ → Ideal} (ht : IsFinite t) (k i : ℕ) (hc : ∀ j, i ≤ j → j ≤ i + k → IsFinite (c j)) :
    IsFinite (casteljau (mix1 t) c k i) ∧ real (casteljau (mix1 t) c k i) = casteljau (mixR (real t)) (fun j => real (c j)) k i := by
  induction k generalizing i with
  | zero => exact ⟨hc i le_rfl le_rfl, rfl⟩
  | succ k ih =>
    obtain ⟨fa, ea⟩ := ih i fun j p q => hc j p (by omega)
    obtain ⟨fb, eb⟩ := ih (i + 1) fun j p q => hc j (by omega) (by omega)
    have fd := Ideal.finite_sub fb fa
    have fm := Ideal.finite_mul fd ht
    refine ⟨Ideal.finite_add fa fm, ?_⟩
    show real (_ + (_ - _) * t) = mixR _ _ _
    rw [Ideal.real_add fa fm, Ideal.real_mul fd ht, Ideal.real_sub fb fa, ea, eb]; rfl
"""+real(2)+real(3)+"\nend VecMath\n")

def rr(x):
    s=-1 if x<0 else 1; x=abs(x)
    e=max(0,x.bit_length()-24)
    n=x>>e; m=x-(n<<e)
    tie=bool(e) and m*2==(1<<e)
    if e and (m*2>(1<<e) or (tie and n&1)): n+=1
    return s*(n<<e), e, n, tie
done={}; lem=''
def rl(N):
    global lem
    if N in done: return done[N]
    z,e,n,tie=rr(N); k=N.bit_length()-1; nm=f'shadow_rnd_{N}'
    done[N]=nm
    lem+=f'''theorem {nm} : binary32.rnd (({N} : ℤ) : ℝ) = (({z} : ℤ) : ℝ) := by
  rw [binary32.rnd_lit{'_even' if tie else ''} ({k}) ({e}) {n}{' (by decide)' if tie else ''} (by decide)]
  all_goals norm_num
'''
    return nm
def hp(v):
    return rl(v) if v>0 else f'(rnd_less {rl(-v)})'
def mul(x,y,a,b):
    p=a*b
    if abs(p)<=2**24: return p,f'ex_int (int_mul32 {x} {y} (by norm_num)) (by norm_num)'
    return rr(p)[0],f'area_mul {x} {y} (by rw [show ({a} : ℤ) * {b} = {p} by norm_num]; exact {hp(p)}) (by norm_num)'
def add(x,y,a,b):
    p=a+b
    if abs(p)<=2**24: return p,f'ex_int (int_add32\' {x} {y} (by norm_num)) (by norm_num)'
    return rr(p)[0],f'shadow_add {x} {y} (by rw [show ({a} : ℤ) + {b} = {p} by norm_num]; exact {hp(p)}) (by norm_num)'
body=''
def along(nm,n,p):
    global body
    a,ha=mul('exi','exi',n[0],p[0]); b,hb=mul('exi','exi',n[1],p[1]); c,hc=add('a','b',a,b)
    body+=f'''theorem {nm} : Exactly ((vec2 ({n[0]}) ({n[1]})).along (pt2 ({p[0]}) ({p[1]}))) (({c} : ℤ) : ℝ) := by
  have a : Exactly (int32 ({n[0]}) (by norm_num) * int32 ({p[0]}) (by norm_num) : F32) (({a} : ℤ) : ℝ) := {ha.replace('exi exi','(exi (by norm_num)) (exi (by norm_num))')}
  have b : Exactly (int32 ({n[1]}) (by norm_num) * int32 ({p[1]}) (by norm_num) : F32) (({b} : ℤ) : ℝ) := {hb.replace('exi exi','(exi (by norm_num)) (exi (by norm_num))')}
  exact {hc}
'''
    return c
n=(6375,6554);p=(1239,1197);q1=(-5315,7572);q2=(7793,-5178)
# q1 must satisfy n.q1=n.p
assert n[0]*(q1[0]-p[0])+n[1]*(q1[1]-p[1])==0 and q1[0]+q2[0]==2*p[0] and q1[1]+q2[1]==2*p[1]
cs=[along('shadow_p',n,p),along('shadow_q',n,q1),along('shadow_r',n,q2)]
print(cs); assert cs[0]<cs[1] and cs[0]<cs[2]
m=(1,1)
c2=[along('shadow_u',m,(16777215,1)),along('shadow_v',m,(16777215,2))]
print(c2); assert c2[0]==c2[1]
P=lambda v:f'pt2 ({v[0]}) ({v[1]})'
out=f'''import Verif.Props.FloatShadow
import Verif.Props.RealShadow
import Verif.Props.AreaEx
import Verif.Props.FloatRayAcc
/-! # C125: the hypotheses are met; an axis reported by mistake and one not found

(Generated by tools/gen.) -/

namespace VecMath
open Scalar IEEE

section
variable {{x y : F32}} {{a b c : ℤ}}
theorem shadow_add (hx : Exactly x a) (hy : Exactly y b) (h : binary32.rnd ((a + b : ℤ) : ℝ) = (c : ℝ)) (hb : |a + b| ≤ 2 ^ 50) : Exactly (x + y) (c : ℝ) := by
  refine exec_add hx hy ?_ (big32' ?_) <;> rw [← Int.cast_add]
  · exact h
  · exact_mod_cast hb
end
noncomputable def vec2 (a b : ℤ) (ha : |a| ≤ 16777216 := by norm_num) (hb : |b| ≤ 16777216 := by norm_num) : Vector2 F32 := ⟨int32 a ha, int32 b hb⟩

/-! ## Numbers that are rounded in `f32` -/
{lem}
/-! ## The projections -/
{body}
/-! ## The witnesses -/
/-- **C125**, where it fails in floating point: in exact arithmetic no axis separates a point from two points it lies between. Here it is the point in the
middle, and the projections of the two others are both computed larger than its own. -/
theorem C125_between : ∃ (n : Vector2 F32) (p q r : Point2 F32), AllFinite n ∧ AllFinite p ∧ AllFinite q ∧ AllFinite r ∧
    p.toReal = midpoint ℝ q.toReal r.toReal ∧ ¬ Disjoint (Point2.hull [p]) (Point2.hull [q, r]) ∧ n.separates [p] [q, r] = true := by
  have hm : ({P(p)} : Point2 F32).toReal = midpoint ℝ ({P(q1)} : Point2 F32).toReal ({P(q2)} : Point2 F32).toReal := by
    rw [midpoint_eq_smul_add]
    funext i; fin_cases i <;> simp [Point2.toReal, pt2, real_int32] <;> norm_num
  refine ⟨vec2 ({n[0]}) ({n[1]}), {P(p)}, {P(q1)}, {P(q2)}, Vector2.allFinite.2 ⟨trivial, trivial⟩, finite_pt2, finite_pt2, finite_pt2, hm, ?_, ?_⟩
  · refine Set.not_disjoint_iff.2 ⟨_, subset_convexHull ℝ _ ⟨_, List.mem_singleton.2 rfl, rfl⟩, ?_⟩
    rw [hm]
    exact (convex_convexHull ℝ _).midpoint_mem (subset_convexHull ℝ _ ⟨_, by simp, rfl⟩) (subset_convexHull ℝ _ ⟨_, by simp, rfl⟩)
  · refine (Vector2.separates_iff _ (by simp) (by simp) ?_ ?_).2 (Or.inl ?_)
    · simp only [List.mem_cons, List.not_mem_nil, or_false, forall_eq]
      exact shadow_p.1
    · simp only [List.mem_cons, List.not_mem_nil, or_false, forall_eq_or_imp, forall_eq]
      exact ⟨shadow_q.1, shadow_r.1⟩
    · simp only [List.mem_cons, List.not_mem_nil, or_false, forall_eq_or_imp, forall_eq]
      rw [shadow_p.2, shadow_q.2, shadow_r.2]
      norm_num
/-- **C125**, where it fails in floating point: an axis that separates two points is not found, because their projections are rounded to the same number. -/
theorem C125_missed : ∃ (n : Vector2 F32) (p q : Point2 F32), AllFinite n ∧ AllFinite p ∧ AllFinite q ∧ n.toReal ⬝ᵥ p.toReal < n.toReal ⬝ᵥ q.toReal ∧
    n.separates [p] [q] = false := by
  refine ⟨vec2 1 1, pt2 16777215 1, pt2 16777215 2, Vector2.allFinite.2 ⟨trivial, trivial⟩, finite_pt2, finite_pt2, ?_, ?_⟩
  · simp [dotProduct, Fin.sum_univ_two, Vector2.toReal, Point2.toReal, vec2, pt2, real_int32]
  · rw [← Bool.not_eq_true, Vector2.separates_iff _ (by simp) (by simp)]
    · simp only [List.mem_cons, List.not_mem_nil, or_false, forall_eq]
      rw [shadow_u.2, shadow_v.2]
      norm_num
    · simp only [List.mem_cons, List.not_mem_nil, or_false, forall_eq]
      exact shadow_u.1
    · simp only [List.mem_cons, List.not_mem_nil, or_false, forall_eq]
      exact shadow_v.1

/-! ## The hypotheses are met -/
theorem finite_vec2 {{a b : ℤ}} {{ha : |a| ≤ 16777216}} {{hb : |b| ≤ 16777216}} : AllFinite (vec2 a b ha hb) := Vector2.allFinite.2 ⟨trivial, trivial⟩
theorem grid_vec2 {{a b : ℤ}} {{ha : |a| ≤ 16777216}} {{hb : |b| ≤ 16777216}} {{N : ℕ}} (h1 : |a| ≤ N) (h2 : |b| ≤ N) (i : Fin 2) :
    OnGrid 0 N ((vec2 a b ha hb).toReal i) := by
  fin_cases i
  · exact (OnGrid.int h1).congr (real_int32 (n := a) (h := ha)).symm
  · exact (OnGrid.int h2).congr (real_int32 (n := b) (h := hb)).symm
theorem small_along (n0 n1 p0 p1 : ℤ) (h0 : |n0| ≤ 100) (h1 : |n1| ≤ 100) (k0 : |p0| ≤ 100) (k1 : |p1| ≤ 100) (h0' : |n0| ≤ 16777216) (h1' : |n1| ≤ 16777216)
    (k0' : |p0| ≤ 16777216) (k1' : |p1| ≤ 16777216) : Exactly ((vec2 n0 n1 h0' h1').along (pt2 p0 p1 k0' k1')) ((n0 * p0 + n1 * p1 : ℤ) : ℝ) := by
  have a : Exactly (int32 n0 h0' * int32 p0 k0' : F32) ((n0 * p0 : ℤ) : ℝ) :=
    int_mul32 exactly_int exactly_int (by rw [abs_mul]; nlinarith [abs_nonneg n0, abs_nonneg p0])
  have b : Exactly (int32 n1 h1' * int32 p1 k1' : F32) ((n1 * p1 : ℤ) : ℝ) :=
    int_mul32 exactly_int exactly_int (by rw [abs_mul]; nlinarith [abs_nonneg n1, abs_nonneg p1])
  refine int_add32' a b ((abs_add_le _ _).trans ?_)
  rw [abs_mul, abs_mul]
  nlinarith [abs_nonneg n0, abs_nonneg p0, abs_nonneg n1, abs_nonneg p1]
/-- A triangle and a segment, and an axis between them. -/
theorem C125_triangle : (vec2 1 2 : Vector2 F32).separates [pt2 0 0, pt2 4 0, pt2 0 2] [pt2 5 0, pt2 1 3] = true := by
  refine (Vector2.separates_iff _ (by simp) (by simp) ?_ ?_).2 (Or.inl ?_)
  · simp only [List.mem_cons, List.not_mem_nil, or_false, forall_eq_or_imp, forall_eq]
    exact ⟨(small_along 1 2 0 0 (by norm_num) (by norm_num) (by norm_num) (by norm_num) _ _ _ _).1,
      (small_along 1 2 4 0 (by norm_num) (by norm_num) (by norm_num) (by norm_num) _ _ _ _).1,
      (small_along 1 2 0 2 (by norm_num) (by norm_num) (by norm_num) (by norm_num) _ _ _ _).1⟩
  · simp only [List.mem_cons, List.not_mem_nil, or_false, forall_eq_or_imp, forall_eq]
    exact ⟨(small_along 1 2 5 0 (by norm_num) (by norm_num) (by norm_num) (by norm_num) _ _ _ _).1,
      (small_along 1 2 1 3 (by norm_num) (by norm_num) (by norm_num) (by norm_num) _ _ _ _).1⟩
  · simp only [List.mem_cons, List.not_mem_nil, or_false, forall_eq_or_imp, forall_eq]
    rw [(small_along 1 2 0 0 (by norm_num) (by norm_num) (by norm_num) (by norm_num) _ _ _ _).2,
      (small_along 1 2 4 0 (by norm_num) (by norm_num) (by norm_num) (by norm_num) _ _ _ _).2,
      (small_along 1 2 0 2 (by norm_num) (by norm_num) (by norm_num) (by norm_num) _ _ _ _).2,
      (small_along 1 2 5 0 (by norm_num) (by norm_num) (by norm_num) (by norm_num) _ _ _ _).2,
      (small_along 1 2 1 3 (by norm_num) (by norm_num) (by norm_num) (by norm_num) _ _ _ _).2]
    norm_num
theorem C125_triangle_grid (p : Point2 F32) (h : p ∈ [pt2 0 0, pt2 4 0, pt2 0 2] ∨ p ∈ [pt2 5 0, pt2 1 3]) : AllFinite p ∧ ∀ i, OnGrid 0 8 (p.toReal i) := by
  simp only [List.mem_cons, List.not_mem_nil, or_false] at h
  rcases h with (rfl | rfl | rfl) | (rfl | rfl) <;> exact ⟨finite_pt2, grid_pt2 (by norm_num) (by norm_num)⟩
/-- On this grid the answer is right: the convex hulls are disjoint. -/
example : (∀ x ∈ Point2.hull [pt2 0 0, pt2 4 0, pt2 0 2], ∀ y ∈ Point2.hull [pt2 5 0, pt2 1 3], (vec2 1 2).toReal ⬝ᵥ x < (vec2 1 2).toReal ⬝ᵥ y) ∨
    (∀ x ∈ Point2.hull [pt2 0 0, pt2 4 0, pt2 0 2], ∀ y ∈ Point2.hull [pt2 5 0, pt2 1 3], (vec2 1 2).toReal ⬝ᵥ y < (vec2 1 2).toReal ⬝ᵥ x) :=
  (C125_exact2 (e := 0) (f := 0) (M := 2) (N := 8) (vec2 1 2) _ _ (by simp) (by simp) finite_vec2 (grid_vec2 (by norm_num) (by norm_num))
    C125_triangle_grid (fits_f32 (by norm_num))).1 C125_triangle
/-- The corners of a box, as a list. -/
theorem corners_box2 {{S : Type}} [Scalar S] (a : BoundingBox2 S) (build : Build) :
    ∃ cs : List (Point2 S), ∀ p, p ∈ cs ↔ ∃ k : UInt32, k < 4 ∧ a.corner build k = .ok p := by
  have e : ∀ k : UInt32, k < 4 → ∃ p, a.corner build k = .ok p := fun k hk => ⟨_, by unfold BoundingBox2.corner; rw [if_neg (by simp [hk])]⟩
  obtain ⟨p0, h0⟩ := e 0 (by decide)
  obtain ⟨p1, h1⟩ := e 1 (by decide)
  obtain ⟨p2, h2⟩ := e 2 (by decide)
  obtain ⟨p3, h3⟩ := e 3 (by decide)
  refine ⟨[p0, p1, p2, p3], fun p => ⟨fun h => ?_, fun ⟨k, hk, h⟩ => ?_⟩⟩
  · simp only [List.mem_cons, List.not_mem_nil, or_false] at h
    rcases h with rfl | rfl | rfl | rfl
    exacts [⟨0, by decide, h0⟩, ⟨1, by decide, h1⟩, ⟨2, by decide, h2⟩, ⟨3, by decide, h3⟩]
  · have hk' : k = 0 ∨ k = 1 ∨ k = 2 ∨ k = 3 := by
      have : k.toNat < 4 := hk
      simp only [← UInt32.toNat_inj]
      change k.toNat = 0 ∨ k.toNat = 1 ∨ k.toNat = 2 ∨ k.toNat = 3
      omega
    rcases hk' with rfl | rfl | rfl | rfl
    · rw [h0] at h; cases h; simp
    · rw [h1] at h; cases h; simp
    · rw [h2] at h; cases h; simp
    · rw [h3] at h; cases h; simp
/-- Two boxes side by side. -/
example : ∃ cs ds : List (Point2 F32), (Vector2.xAxis : Vector2 F32).separates cs ds = true ∨ (Vector2.yAxis : Vector2 F32).separates cs ds = true := by
  have l : ∀ m n : ℤ, ∀ (hm : |m| ≤ 16777216) (hn : |n| ≤ 16777216), m ≤ n → (int32 m hm ≤? int32 n hn : Bool) = true := fun m n hm hn h =>
    (ole_real' finite_int32 finite_int32).2 (by rw [real_int32, real_int32]; exact_mod_cast h)
  obtain ⟨cs, hc⟩ := corners_box2 (⟨pt2 0 0, pt2 2 2⟩ : BoundingBox2 F32) .debug
  obtain ⟨ds, hd⟩ := corners_box2 (⟨pt2 3 1, pt2 5 4⟩ : BoundingBox2 F32) .debug
  refine ⟨cs, ds, (C125_boxes2 ⟨pt2 0 0, pt2 2 2⟩ ⟨pt2 3 1, pt2 5 4⟩ .debug cs ds ⟨finite_pt2, finite_pt2⟩ ⟨finite_pt2, finite_pt2⟩ ?_ ?_ hc hd).1 ?_⟩
  · exact Point2.leAll.2 ⟨l 0 2 (by norm_num) (by norm_num) (by norm_num), l 0 2 (by norm_num) (by norm_num) (by norm_num)⟩
  · exact Point2.leAll.2 ⟨l 3 5 (by norm_num) (by norm_num) (by norm_num), l 1 4 (by norm_num) (by norm_num) (by norm_num)⟩
  · rw [← Bool.not_eq_true, overlaps2_iff]
    rintro ⟨⟨h, -⟩, -⟩
    change (int32 3 (by norm_num) ≤? int32 2 (by norm_num)) = true at h
    have := (ole_real' finite_int32 finite_int32).1 h
    rw [real_int32, real_int32] at this
    norm_num at this
theorem shadow_error (p : Point2 F32) (h : p = pt2 0 0 ∨ p = pt2 9 0) :
    ((1 + uro F32) ^ 2 - 1) * (∑ i, |(vec2 1 1).toReal i * p.toReal i|) + 2 * (1 + uro F32) ^ (1) * tiny F32 ≤ 1 := by
  have ht : tiny F32 ≤ 1 / 16777216 := by
    have : tiny F32 = 2 ^ (-150 : ℤ) := by show (2 : ℝ) ^ (_ : ℤ) = _; congr 1
    rw [this]; norm_num
  rw [uro_f32, Fin.sum_univ_two]
  rcases h with rfl | rfl <;> simp [Vector2.toReal, Point2.toReal, vec2, pt2, real_int32] <;> norm_num <;> linarith
theorem shadow_wide : (∀ p ∈ [(pt2 0 0 : Point2 F32)], IsFinite ((vec2 1 1).along p)) ∧ (∀ q ∈ [(pt2 9 0 : Point2 F32)], IsFinite ((vec2 1 1).along q)) := by
  simp only [List.mem_cons, List.not_mem_nil, or_false, forall_eq]
  exact ⟨(small_along 1 1 0 0 (by norm_num) (by norm_num) (by norm_num) (by norm_num) _ _ _ _).1,
    (small_along 1 1 9 0 (by norm_num) (by norm_num) (by norm_num) (by norm_num) _ _ _ _).1⟩
/-- A wide gap is found. -/
example : (vec2 1 1 : Vector2 F32).separates [pt2 0 0] [pt2 9 0] = true := by
  refine C125_found2 _ _ _ (by simp) (by simp) shadow_wide.1 shadow_wide.2 1 (fun p h => shadow_error p (by simpa using h)) ?_
  simp [dotProduct, Fin.sum_univ_two, Vector2.toReal, Point2.toReal, vec2, pt2, real_int32]
  norm_num
/-- A wide computed gap is real. -/
example : Disjoint (Point2.hull [(pt2 0 0 : Point2 F32)]) (Point2.hull [(pt2 9 0 : Point2 F32)]) := by
  refine (C125_sound2 (vec2 1 1) _ _ (by simp) (by simp) shadow_wide.1 shadow_wide.2 1 (fun p h => shadow_error p (by simpa using h)) ?_).2
  obtain ⟨-, -, d, hd, e⟩ := highest_real (ds := [(pt2 0 0 : Point2 F32)].map (vec2 1 1).along) (by simp) (by simpa using shadow_wide.1)
  obtain ⟨-, -, d', hd', e'⟩ := lowest_real (ds := [(pt2 9 0 : Point2 F32)].map (vec2 1 1).along) (by simp) (by simpa using shadow_wide.2)
  simp only [List.map_cons, List.map_nil, List.mem_cons, List.not_mem_nil, or_false] at hd hd'
  rw [e, e', hd, hd', (small_along 1 1 0 0 (by norm_num) (by norm_num) (by norm_num) (by norm_num) _ _ _ _).2,
    (small_along 1 1 9 0 (by norm_num) (by norm_num) (by norm_num) (by norm_num) _ _ _ _).2]
  norm_num
/-- In exact arithmetic two points are apart, so there is an axis. -/
example : ∃ n : Vector2 Ideal, AllFinite n ∧ n.separates [⟨Ideal.of 0, Ideal.of 0⟩] [⟨Ideal.of 1, Ideal.of 0⟩] = true := by
  refine (C125_axis2 _ _ (by simp) (by simp) ?_).1 ?_
  · simp only [List.mem_cons, List.not_mem_nil, or_false]
    rintro p (rfl | rfl) <;> exact Point2.allFinite.2 ⟨Ideal.finite_of _, Ideal.finite_of _⟩
  · unfold Point2.hull
    simp only [List.mem_cons, List.not_mem_nil, or_false, exists_eq_left, Set.ofPred_eq_eq_singleton, convexHull_singleton, Set.disjoint_singleton]
    intro h
    have := congrFun h 0
    simp [Point2.toReal, Ideal.real_of] at this

end VecMath
'''
open('/tmp/d/ShadowEx.lean','w').write(out)

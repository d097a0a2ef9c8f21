exec(open('/tmp/w/fl.py').read().split('for name')[0])
rnd,sq=mk(24,-149)
def lg(x):
    k=0
    while Fr(2)**(k+1)<=x: k+=1
    return k
done={}
out='''import Verif.Props.FloatArea
import Verif.Props.FloatBallEx
import Verif.Props.FloatPlaneEx
import Verif.Props.FloatInvAffineEx
import Verif.Props.FloatExamples
/-! # C124: the hypotheses are met; areas seen from far away; the choice of the first vertex

(Generated by tools/gen.) -/

namespace VecMath
open Scalar IEEE

section
variable {x y : F32} {a b c : ℤ}
theorem area_mul (hx : Exactly x a) (hy : Exactly y b) (h : binary32.rnd ((a * b : ℤ) : ℝ) = (c : ℝ)) (hb : |a * b| ≤ 2 ^ 50) : Exactly (x * y) (c : ℝ) := by
  refine exec_mul hx hy ?_ (big32' ?_) <;> rw [← Int.cast_mul]
  · exact h
  · exact_mod_cast hb
theorem area_dif (m n k : ℤ) (hm : |m| ≤ 16777216) (hn : |n| ≤ 16777216) (h : |m - n| ≤ 16777216) (e : m - n = k) :
    Exactly (int32 m hm - int32 n hn : F32) ((k : ℤ) : ℝ) := ex_int (int_sub32' (exi hm) (exi hn) h) e
theorem rnd_less {n m : ℤ} (h : binary32.rnd (n : ℝ) = m) : binary32.rnd ((-n : ℤ) : ℝ) = ((-m : ℤ) : ℝ) := by
  rw [Int.cast_neg, binary32.rnd_neg, h, Int.cast_neg]
end

/-! ## Products that are rounded in `f32` -/
'''
def rl(N):
    """lemma rnd(N) for N>0, > 2^24"""
    global out
    if N in done: return done[N]
    z=rnd(Fr(N)); k=lg(Fr(N)); q=k-23; n=z/Fr(2)**q; assert n.denominator==1
    tie = abs(Fr(N)-z)==Fr(2)**q/2
    nm=f'area_rnd_{N}'
    done[N]=nm
    out+=f'''theorem {nm} : binary32.rnd (({N} : ℤ) : ℝ) = (({z} : ℤ) : ℝ) := by
  rw [binary32.rnd_lit{'_even' if tie else ''} ({k}) ({q}) {n}{' (by decide)' if tie else ''} (by decide)]
  all_goals norm_num
'''
    return nm
def pw(a,b):
    """proof of rounded product; returns (value, term builder)"""
    p=a*b
    if abs(p)<=2**24: return p,None
    z=rnd(Fr(p)); nm=rl(abs(p))
    return int(z),(nm if p>0 else f'(rnd_less {nm})')
body=''
def term(name,u,v):
    """-u.y*v.x + u.x*v.y"""
    global body
    p,hp=pw(-u[1],v[0]); r,hr=pw(u[0],v[1])
    s=p+r; assert abs(s)<=2**24, (s)
    def mul(h,x,y,a,b,z):
        if h is None: return f'ex_int (int_mul32 {x} {y} (by norm_num)) (by norm_num)'
        return f'area_mul {x} {y} (by norm_num only; exact {h}) (by norm_num)'.replace('norm_num only','rw [show (%d : ℤ) * %d = %d by norm_num]'%(a,b,a*b))
    body+=f'''theorem {name} {{a b c d : F32}} (ha : Exactly a (({u[0]} : ℤ) : ℝ)) (hb : Exactly b (({u[1]} : ℤ) : ℝ)) (hc : Exactly c (({v[0]} : ℤ) : ℝ)) (hd : Exactly d (({v[1]} : ℤ) : ℝ)) :
    Exactly (-b * c + a * d) (({s} : ℤ) : ℝ) := by
  have nb : Exactly (-b) (({-u[1]} : ℤ) : ℝ) := ex_int (int_neg32 hb) (by norm_num)
  have p : Exactly (-b * c) (({p} : ℤ) : ℝ) := {mul(hp,'nb','hc',-u[1],v[0],p)}
  have q : Exactly (a * d) (({r} : ℤ) : ℝ) := {mul(hr,'ha','hd',u[0],v[1],r)}
  exact ex_int (int_add32' p q (by norm_num)) (by norm_num)
'''
    return s
def pt(p): return f'pt2 ({p[0]}) ({p[1]})'
def area(name,doc,o,ps):
    global body
    t=0; ts=[]
    for i,(a,b) in enumerate(zip(ps,ps[1:])):
        u=(a[0]-o[0],a[1]-o[1]); v=(b[0]-o[0],b[1]-o[1])
        ts.append((term(f'{name}_{i}',u,v),a,b)); 
    body+=f'''/-- {doc} -/
theorem {name} : Exactly (({pt(o)} : Point2 F32).areaFrom [{", ".join(pt(p) for p in ps)}]) (({sum(s for s,_,_ in ts)} : ℤ) : ℝ) := by
'''
    acc='int_zero32'; tot=0
    for i,(s,u,v) in enumerate(ts):
        f=lambda m,n: f'(area_dif ({m}) ({n}) ({m-n}) (by norm_num) (by norm_num) (by norm_num) (by norm_num))'
        body+=f'''  have t{i} := {name}_{i} {f(u[0],o[0])} {f(u[1],o[1])} {f(v[0],o[0])} {f(v[1],o[1])}
'''
        tot+=s
        body+=f'''  have s{i} := ex_int (b := {tot}) (int_add32' {acc} t{i} (by norm_num)) (by norm_num)
'''
        acc=f's{i}'
    body+=f'''  exact {acc}
'''
    return tot
far=[(5134,7046),(5133,7046),(5132,7045)]
x=area('far_area_origin','Seen from the origin the area of a small triangle far away is lost.',(0,0),far+[far[0]])
assert x==-4,x
assert area('far_area_fan','The fan around its first vertex gives the area.',far[0],far[1:])==1
cyc=[(0,0),(4167,2565),(237,4073)]
x=area('cyclic_area_1','One choice of the first vertex.',cyc[0],cyc[1:]); assert x==16364287,x
y=area('cyclic_area_2','Another choice.',cyc[1],[cyc[2],cyc[0]]); assert y==16364286
D=1
out+='''
/-! ## The triangles, one by one -/
'''+body
out+=f'''
/-! ## The witnesses -/
/-- **C124**, where it fails in floating point: in exact arithmetic the area does not depend on the point it is seen from, and the vertices of a small
triangle far from the origin turn left around an area of one half. Seen from the origin the computed double area is -4, with the wrong sign; the fan around
the first vertex computes it exactly. -/
theorem C124_far : ∃ o a b c : Point2 F32, AllFinite o ∧ o.toReal = 0 ∧ AllFinite a ∧ AllFinite b ∧ AllFinite c ∧ exactArea2 a.toReal [b.toReal, c.toReal] = 1 ∧
    Exactly (a.polygon [b, c]) 1 ∧ Exactly (o.areaFrom [a, b, c, a]) (-4) := by
  refine ⟨pt2 0 0, {pt(far[0])}, {pt(far[1])}, {pt(far[2])}, Point2.allFinite.2 ⟨trivial, trivial⟩, ?_, Point2.allFinite.2 ⟨trivial, trivial⟩, Point2.allFinite.2 ⟨trivial, trivial⟩, Point2.allFinite.2 ⟨trivial, trivial⟩, ?_, ?_, ?_⟩
  · funext i; fin_cases i <;> simp [Point2.toReal, pt2, real_int32]
  · simp [exactArea2, perp, Point2.toReal, pt2, real_int32]
    norm_num
  · have := far_area_fan
    rw [Int.cast_one] at this
    exact this
  · have := far_area_origin
    rwa [show ((-4 : ℤ) : ℝ) = -4 by norm_num] at this
/-- **C124**, where it fails in floating point: without room on the grid the area depends on the vertex the polygon begins with. -/
theorem C124_first_vertex : ∃ a b c : Point2 F32, AllFinite a ∧ AllFinite b ∧ AllFinite c ∧ (a.polygon [b, c] == b.polygon [c, a]) = false := by
  refine ⟨{pt(cyc[0])}, {pt(cyc[1])}, {pt(cyc[2])}, Point2.allFinite.2 ⟨trivial, trivial⟩, Point2.allFinite.2 ⟨trivial, trivial⟩, Point2.allFinite.2 ⟨trivial, trivial⟩, ?_⟩
  exact exactly_ne cyclic_area_1 cyclic_area_2 (by norm_num)'''
out+='''
/-! ## The hypotheses are met -/
/-- **C124** in `f32`: the areas of polygons with up to eight more vertices and integer coordinates up to 512 are exact. -/
theorem C124_small2 (o : Point2 F32) (ps : List (Point2 F32)) (hl : ps.length ≤ 8) (h : ∀ p ∈ o :: ps, AllFinite p ∧ ∀ i, OnGrid 0 512 (p.toReal i)) :
    Exactly (o.polygon ps) (exactArea2 o.toReal (ps.map Point2.toReal)) :=
  C124_exact2 (e := 0) (M := 512) (fits_f32 (by norm_num)) o ps (fits_f32 (by omega)) h
theorem C124_small3 (o : Point3 F32) (ps : List (Point3 F32)) (hl : ps.length ≤ 8) (h : ∀ p ∈ o :: ps, AllFinite p ∧ ∀ i, OnGrid 0 512 (p.toReal i)) :
    AllFinite (o.polygon ps) ∧ (o.polygon ps).toReal = exactArea3 o.toReal (ps.map Point3.toReal) :=
  C124_exact3 (e := 0) (M := 512) (fits_f32 (by norm_num)) o ps (fits_f32 (by omega)) h
theorem area_grid2 {a b : ℤ} {ha : |a| ≤ 16777216} {hb : |b| ≤ 16777216} (h1 : |a| ≤ 512) (h2 : |b| ≤ 512) :
    AllFinite (pt2 a b ha hb) ∧ ∀ i, OnGrid 0 512 ((pt2 a b ha hb).toReal i) := by
  exact ⟨finite_pt2, grid_pt2 h1 h2⟩
/-- A pentagon, with a repeated vertex and closed: nothing changes, and the area is the exact one. -/
theorem C124_pentagon : Exactly ((pt2 0 0 : Point2 F32).polygon [pt2 4 0, pt2 6 3, pt2 3 5, pt2 (-1) 3]) 47 := by
  have := C124_small2 (pt2 0 0) [pt2 4 0, pt2 6 3, pt2 3 5, pt2 (-1) 3] (by simp) (by
    intro p hp
    simp only [List.mem_cons, List.not_mem_nil, or_false] at hp
    rcases hp with rfl | rfl | rfl | rfl | rfl <;> exact area_grid2 (by norm_num) (by norm_num))
  have e : exactArea2 (pt2 0 0 : Point2 F32).toReal ([pt2 4 0, pt2 6 3, pt2 3 5, pt2 (-1) 3].map Point2.toReal) = 47 := by
    simp [exactArea2, perp, Point2.toReal, pt2, real_int32]
    norm_num
  rwa [e] at this
example : ((pt2 0 0 : Point2 F32).polygon ([pt2 4 0, pt2 6 3, pt2 3 5, pt2 (-1) 3] ++ [pt2 0 0]) == (pt2 0 0 : Point2 F32).polygon [pt2 4 0, pt2 6 3, pt2 3 5, pt2 (-1) 3]) = true := by
  refine C124_close2 _ _ (C124_small2 (pt2 0 0) _ (by simp) ?_).1
  intro p hp
  simp only [List.mem_cons, List.mem_append, List.not_mem_nil, or_false] at hp
  rcases hp with rfl | (rfl | rfl | rfl | rfl) | rfl <;> exact area_grid2 (by norm_num) (by norm_num)
example : ((pt2 0 0 : Point2 F32).areaFrom ([pt2 4 0] ++ pt2 6 3 :: pt2 6 3 :: [pt2 3 5]) == (pt2 0 0 : Point2 F32).areaFrom ([pt2 4 0] ++ pt2 6 3 :: [pt2 3 5])) = true := by
  refine C124_repeat2 _ _ _ _ (C124_small2 (pt2 0 0) _ (by simp) ?_).1
  intro p hp
  simp only [List.mem_cons, List.mem_append, List.not_mem_nil, or_false, false_or] at hp
  rcases hp with rfl | rfl | rfl | rfl | rfl <;> exact area_grid2 (by norm_num) (by norm_num)
example : ((pt3 0 0 1 : Point3 F32).polygon ([pt3 4 0 2, pt3 6 3 5, pt3 3 5 0] ++ [pt3 0 0 1]) == (pt3 0 0 1 : Point3 F32).polygon [pt3 4 0 2, pt3 6 3 5, pt3 3 5 0]) = true := by
  refine C124_close3 _ _ (C124_small3 (pt3 0 0 1) _ (by simp) ?_).1
  intro p hp
  simp only [List.mem_cons, List.mem_append, List.not_mem_nil, or_false] at hp
  rcases hp with rfl | (rfl | rfl | rfl) | rfl <;> exact ⟨finite_pt3, grid_pt3 (by norm_num) (by norm_num) (by norm_num)⟩
example : ((pt3 0 0 1 : Point3 F32).areaFrom ([pt3 4 0 2] ++ pt3 6 3 5 :: pt3 6 3 5 :: [pt3 3 5 0]) == (pt3 0 0 1 : Point3 F32).areaFrom ([pt3 4 0 2] ++ pt3 6 3 5 :: [pt3 3 5 0])) = true := by
  refine C124_repeat3 _ _ _ _ (C124_small3 (pt3 0 0 1) _ (by simp) ?_).1
  intro p hp
  simp only [List.mem_cons, List.mem_append, List.not_mem_nil, or_false, false_or] at hp
  rcases hp with rfl | rfl | rfl | rfl | rfl <;> exact ⟨finite_pt3, grid_pt3 (by norm_num) (by norm_num) (by norm_num)⟩
example : IsFinite ((⟨pt2 1 2, pt2 4 7⟩ : BoundingBox2 F32).area + (⟨pt2 1 2, pt2 4 7⟩ : BoundingBox2 F32).area) := by
  have w : Exactly (int32 4 - int32 1 : F32) ((3 : ℤ) : ℝ) := area_dif 4 1 3 (by norm_num) (by norm_num) (by norm_num) (by norm_num)
  have h : Exactly (int32 7 - int32 2 : F32) ((5 : ℤ) : ℝ) := area_dif 7 2 5 (by norm_num) (by norm_num) (by norm_num) (by norm_num)
  have a := int_mul32 w h (by norm_num)
  exact (int_add32' a a (by norm_num)).1
/-- The bound on the error applies to the triangle above whose area is rounded. -/
example : IsFinite ((pt2 0 0 : Point2 F32).areaFrom [pt2 4167 2565, pt2 237 4073]) := cyclic_area_1.1
end VecMath
'''
open('/tmp/d/AreaEx.lean','w').write(out)

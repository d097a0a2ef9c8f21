def gen(n):
    k=n+1
    last=str(n); row={2:'![0, 0, 1]',3:'![0, 0, 0, 1]'}[n]
    su={2:'Fin.sum_univ_two',3:'Fin.sum_univ_three'}[n]
    cs={2:['.1','.2'],3:['.1','.2.1','.2.2']}[n]
    comps='xyz'[:n]
    sumgrid=lambda p: ('('*(n-1))+f'((gt i 0).mul ({p} 0))'+''.join(f'.add ((gt i {j}).mul ({p} {j})))' for j in range(1,n))
    return f'''
/-! ### {n}D -/

/-- **C68** ({n}D): an affine transform with grid entries takes a grid box exactly to the box spanned by the exact images of
its two corners. -/
theorem C68_transform_box{n} (t : Transform{n} S) (b : BoundingBox{n} S) (ht : AllFinite t.forward) (hb : AllFinite b)
    (haff : t.forward.toReal {last} = {row})
    (gt : ∀ i j : Fin {n}, OnGrid e M (t.forward.toReal i.castSucc j.castSucc))
    (gs : ∀ i : Fin {n}, OnGrid (e + f) K (t.forward.toReal i.castSucc {last})) (gmin : ∀ i, OnGrid f N (b.min.toReal i))
    (gmax : ∀ i, OnGrid f N (b.max.toReal i)) (hf : Fits S f (N + N)) (hF : Fits S (e + f) ({n} * (M * (N + N)) + K)) :
    AllFinite (Transform.transform t b.min : Point{n} S) ∧
    AllFinite ((Transform.transform t b.min : Point{n} S) + (Transform.transform t b.diagonal : Vector{n} S)) ∧
    AllFinite (Transform.transform t b : BoundingBox{n} S) ∧ ∀ i,
      (Transform.transform t b : BoundingBox{n} S).min.toReal i =
        min (image t.forward.toReal b.min.toReal i) (image t.forward.toReal b.max.toReal i) ∧
      (Transform.transform t b : BoundingBox{n} S).max.toReal i =
        max (image t.forward.toReal b.min.toReal i) (image t.forward.toReal b.max.toReal i) := by
  have hb' := hb
  rw [BoundingBox{n}.allFinite] at hb'
  obtain ⟨hmin, hmax⟩ := hb'
  have mle : {n} * (M * N) + K ≤ {n} * (M * (N + N)) + K := by
    have : M * N ≤ M * (N + N) := Nat.mul_le_mul_left _ (by omega)
    omega
  have hP := C68_transform_point{n} t b.min ht hmin haff gt gs gmin (hF.mono mle)
  rw [Point{n}.allFinite] at hmin hmax
'''+''.join(f'''  have d{q} := (G.of hmax{c} (gmax {q})).sub (G.of hmin{c} (gmin {q})) hf
''' for q,c in enumerate(cs))+f'''  have fdiag : AllFinite b.diagonal := Vector{n}.allFinite.2 ⟨{', '.join(f'd{q}.ex.1' for q in range(n))}⟩
  have ediag : ∀ j, b.diagonal.toReal j = b.max.toReal j - b.min.toReal j := by
    intro j; fin_cases j
'''+''.join(f'    · exact d{q}.ex.2\n' for q in range(n))+f'''  have hV := C68_transform_vector{n} t b.diagonal ht fdiag gt (fun j => by rw [ediag]; exact (gmax j).sub (gmin j)) (hF.mono (by omega))
  have gimg : ∀ (x : Fin {n} → ℝ), (∀ i, OnGrid f N (x i)) → ∀ i, OnGrid (e + f) ({n} * (M * (N + N)) + K) (image t.forward.toReal x i) := by
    intro x gx i
    unfold image
    rw [{su}]
    exact ({sumgrid('gx')}.add (gs i)).mono (by
      refine le_trans ?_ mle; omega)
  have esum : ∀ i, (Transform.transform t b.min : Point{n} S).toReal i + (Transform.transform t b.diagonal : Vector{n} S).toReal i =
      image t.forward.toReal b.max.toReal i := by
    intro i
    rw [hP.2, hV.2]
    unfold image
    simp only [ediag, mul_sub, Finset.sum_sub_distrib]
    show _ + t.forward.toReal i.castSucc {last} + _ = _ + t.forward.toReal i.castSucc {last}
    ring
  have fP := hP.1
  rw [Point{n}.allFinite] at fP
  have fV := hV.1
  rw [Vector{n}.allFinite] at fV
  have gim := gimg _ gmax
'''+''.join(f'''  have s{q} : Exactly ((Transform.transform t b.min : Point{n} S) + (Transform.transform t b.diagonal : Vector{n} S)).{comps[q]} (image t.forward.toReal b.max.toReal {q}) :=
    Correct.grid (by have h := correct_add fP{c} fV{c}; rwa [show real (Transform.transform t b.min : Point{n} S).{comps[q]} + real (Transform.transform t b.diagonal : Vector{n} S).{comps[q]} = _ from esum {q}] at h) (gim {q}) hF
''' for q,c in enumerate(cs))+f'''  have hbeq := C56_float_span{n} t b (Point{n}.noNaN.2 ⟨{', '.join(f"fP{c}.not_nan" for c in cs)}⟩) (Point{n}.noNaN.2 ⟨{', '.join(f"s{q}.1.not_nan" for q in range(n))}⟩)
  rw [BoundingBox{n}.beq_iff, Point{n}.beq_iff, Point{n}.beq_iff] at hbeq
  obtain ⟨⟨{', '.join('l'+c for c in comps)}⟩, ⟨{', '.join('r'+c for c in comps)}⟩⟩ := hbeq
'''+''.join(f'''  obtain ⟨⟨fn{q}, en{q}⟩, fx{q}, ex{q}⟩ := finite_minmax fP{c} s{q}.1
  obtain ⟨gn{q}, dn{q}⟩ := finite_of_beq l{comps[q]} fn{q}
  obtain ⟨gx{q}, dx{q}⟩ := finite_of_beq r{comps[q]} fx{q}
  have mn{q} := dn{q}.trans (en{q}.trans (congrArg₂ min (hP.2 {q}) s{q}.2))
  have mx{q} := dx{q}.trans (ex{q}.trans (congrArg₂ max (hP.2 {q}) s{q}.2))
''' for q,c in enumerate(cs))+f'''  refine ⟨hP.1, Point{n}.allFinite.2 ⟨{', '.join(f's{q}.1' for q in range(n))}⟩, BoundingBox{n}.allFinite.2 ⟨Point{n}.allFinite.2 ⟨{', '.join(f'gn{q}' for q in range(n))}⟩, Point{n}.allFinite.2 ⟨{', '.join(f'gx{q}' for q in range(n))}⟩⟩, fun i => ?_⟩
  fin_cases i
'''+''.join(f'  · exact ⟨mn{q}, mx{q}⟩\n' for q in range(n))+f'''
/-- **C68** ({n}D): with such data the transformed box contains the image of every grid point of the box, if no row of the
linear part has mixed signs. -/
theorem C68_transform_box_contains{n} (t : Transform{n} S) (b : BoundingBox{n} S) (ht : AllFinite t.forward) (hb : AllFinite b)
    (haff : t.forward.toReal {last} = {row})
    (gt : ∀ i j : Fin {n}, OnGrid e M (t.forward.toReal i.castSucc j.castSucc))
    (gs : ∀ i : Fin {n}, OnGrid (e + f) K (t.forward.toReal i.castSucc {last})) (gmin : ∀ i, OnGrid f N (b.min.toReal i))
    (gmax : ∀ i, OnGrid f N (b.max.toReal i)) (hf : Fits S f (N + N)) (hF : Fits S (e + f) ({n} * (M * (N + N)) + K))
    (hsign : OneSigned t.forward.toReal) (p : Point{n} S) (hp : AllFinite p) (gp : ∀ i, OnGrid f N (p.toReal i))
    (hin : b.isInside p = true) :
    (Transform.transform t b : BoundingBox{n} S).isInside (Transform.transform t p : Point{n} S) = true := by
  obtain ⟨-, -, fb, hB⟩ := C68_transform_box{n} t b ht hb haff gt gs gmin gmax hf hF
  have mle : {n} * (M * N) + K ≤ {n} * (M * (N + N)) + K := by
    have : M * N ≤ M * (N + N) := Nat.mul_le_mul_left _ (by omega)
    omega
  obtain ⟨fp, hp2⟩ := C68_transform_point{n} t p ht hp haff gt gs gp (hF.mono mle)
  have hx : InBox b.min.toReal b.max.toReal p.toReal := inBox_of{n} hb hp hin
  have hi : ∀ i, (Transform.transform t b : BoundingBox{n} S).min.toReal i ≤ (Transform.transform t p : Point{n} S).toReal i ∧
      (Transform.transform t p : Point{n} S).toReal i ≤ (Transform.transform t b : BoundingBox{n} S).max.toReal i := by
    intro i
    rw [(hB i).1, (hB i).2, hp2 i]
    exact image_between hsign hx i
  rw [isInside{n}_iff]
  rw [BoundingBox{n}.allFinite, Point{n}.allFinite, Point{n}.allFinite] at fb
  rw [Point{n}.allFinite] at fp
  have key : ∀ {{x y : S}}, IsFinite x → IsFinite y → real x ≤ real y → (x ≤? y) = true := fun hx hy h =>
    le_iff.2 ⟨hx.not_nan, hy.not_nan, by rw [hx.val, hy.val]; exact EReal.coe_le_coe_iff.2 h⟩
  exact ⟨{', '.join(f'⟨key fb.1{c} fp{c} (hi {q}).1, key fp{c} fb.2{c} (hi {q}).2⟩' for q,c in enumerate(cs))}⟩
'''
def inb(n):
    cs={2:['.1','.2'],3:['.1','.2.1','.2.2']}[n]
    return f'''theorem inBox_of{n} {{b : BoundingBox{n} S}} {{p : Point{n} S}} (hb : AllFinite b) (hp : AllFinite p) (hin : b.isInside p = true) :
    InBox b.min.toReal b.max.toReal p.toReal := by
  rw [BoundingBox{n}.allFinite, Point{n}.allFinite, Point{n}.allFinite] at hb
  rw [isInside{n}_iff] at hin
  rw [Point{n}.allFinite] at hp
  have key : ∀ {{x y : S}}, IsFinite x → IsFinite y → ((x ≤? y) = true) → real x ≤ real y := fun hx hy h => by
    have := (le_iff.1 h).2.2
    rwa [hx.val, hy.val, EReal.coe_le_coe_iff] at this
  intro j
  fin_cases j
'''+''.join(f'  · exact ⟨key hb.1{c} hp{c} hin{c}.1, key hp{c} hb.2{c} hin{c}.2⟩\n' for c in cs)
open('/verif/lean/Verif/Props/FloatExactBox.lean','w').write('''import Verif.Props.FloatBoxImage
import Verif.Props.FloatExact
/-! # Layer F: transformed boxes are exact on integer and fixed-point data (C68) -/

open Classical

namespace VecMath
open Scalar IEEE

variable {S : Type} [Scalar S] [IEEE S] [Binary S] {e f : ℤ} {M N K : ℕ}

omit [Binary S] in
'''+inb(2)+"omit [Binary S] in\n"+inb(3)+gen(2)+gen(3)+"\nend VecMath\n")

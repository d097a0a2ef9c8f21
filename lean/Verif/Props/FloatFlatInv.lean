import Verif.Props.FloatFlatMat
import Verif.Props.FloatInvAffine
/-! # C117: plane geometry in space – inverting affine matrices

The cofactors of the copy of an affine matrix of the plane are generated by `tools/gen/flat.py`. -/

open Classical

namespace VecMath
open Scalar IEEE Relator

section
variable {S : Type} [Scalar S] [IEEE S]
local notation "Z" => SameNumber (S := S) (T := S)

/-- An affine matrix of the plane, in space. -/
def flatK (p q u r s v : S) : Matrix4x4 S :=
  Matrix4x4.new #v[p, q, zero, u, r, s, zero, v, zero, zero, one, zero, zero, zero, zero, one]
theorem finite_num_mul {a b : S} (h : IsFinite (a * b)) : nmul (IEEE.A S) (nmul (IEEE.A S) (num a) (num b)) (.fin 0) = .fin 0 := by
  rw [← IEEE.num_mul, IEEE.nmul_zero h]
theorem nadd_neg_zero (a b : S) : nadd (IEEE.A S) (nadd (IEEE.A S) (num a) (nneg (num b))) (.fin 0) = nadd (IEEE.A S) (num a) (nneg (num b)) := by
  rw [← num_sub_neg, IEEE.nadd_zero]
theorem nadd_nneg_mul_zero (a b c d : S) : nadd (IEEE.A S) (nadd (IEEE.A S) (nmul (IEEE.A S) (num a) (num b)) (nneg (nmul (IEEE.A S) (num c) (num d)))) (.fin 0)
    = nadd (IEEE.A S) (nmul (IEEE.A S) (num a) (num b)) (nneg (nmul (IEEE.A S) (num c) (num d))) := by
  rw [← IEEE.num_mul, ← IEEE.num_mul, nadd_neg_zero]
theorem nmul_mul_one (a b : S) : nmul (IEEE.A S) (nmul (IEEE.A S) (num a) (num b)) (.fin 1) = nmul (IEEE.A S) (num a) (num b) := by
  rw [← IEEE.num_mul, IEEE.nmul_one]
theorem one_nmul_nadd (a b c d : S) : nmul (IEEE.A S) (.fin 1) (nadd (IEEE.A S) (nmul (IEEE.A S) (num a) (num b)) (nneg (nmul (IEEE.A S) (num c) (num d))))
    = nadd (IEEE.A S) (nmul (IEEE.A S) (num a) (num b)) (nneg (nmul (IEEE.A S) (num c) (num d))) := by
  rw [← IEEE.num_mul, ← IEEE.num_mul, ← num_sub_neg, IEEE.one_nmul]
theorem nneg_one_nmul_nadd (a b c d : S) : nmul (IEEE.A S) (nneg (.fin 1)) (nadd (IEEE.A S) (nmul (IEEE.A S) (num a) (num b)) (nneg (nmul (IEEE.A S) (num c) (num d))))
    = nneg (nadd (IEEE.A S) (nmul (IEEE.A S) (num a) (num b)) (nneg (nmul (IEEE.A S) (num c) (num d)))) := by
  rw [← IEEE.num_mul, ← IEEE.num_mul, ← num_sub_neg, nneg_one_mul]
theorem zero_nadd_mul_nneg (a b c d : S) : nadd (IEEE.A S) (nadd (IEEE.A S) (.fin 0) (nmul (IEEE.A S) (num a) (num b))) (nneg (nmul (IEEE.A S) (num c) (num d)))
    = nadd (IEEE.A S) (nmul (IEEE.A S) (num a) (num b)) (nneg (nmul (IEEE.A S) (num c) (num d))) := by
  rw [← IEEE.num_mul, ← IEEE.num_mul, IEEE.zero_nadd]
macro "flat_simp" "[" hs:Lean.Parser.Tactic.simpLemma,* "]" : tactic =>
  `(tactic| neg_simp [finite_num_mul, nadd_neg_zero, nadd_nneg_mul_zero, nmul_mul_one, one_nmul_nadd, nneg_one_nmul_nadd, zero_nadd_mul_nneg, $hs,*])

variable {p q u r s v : S}

theorem cof_flat00 (hs : IsFinite s) (hv : IsFinite v) :
    num ((flatK p q u r s v).cofactor 0 0) = num (s : S) := by
  show num (one * (s * one * one + zero * zero * zero + v * zero * zero - s * zero * zero - zero * zero * one - v * one * zero) : S) = _
  flat_simp [hs, hv]
theorem cof_flat10 (hq : IsFinite q) (hu : IsFinite u) :
    num ((flatK p q u r s v).cofactor 1 0) = num (-q : S) := by
  show num (-one * (q * one * one + zero * zero * zero + u * zero * zero - q * zero * zero - zero * zero * one - u * one * zero) : S) = _
  flat_simp [hq, hu]
theorem cof_flat20 (hq : IsFinite q) (hu : IsFinite u) (hs : IsFinite s) (hv : IsFinite v) (us : IsFinite (u * s)) (qv : IsFinite (q * v)) :
    num ((flatK p q u r s v).cofactor 2 0) = num (zero : S) := by
  show num (one * (q * zero * one + zero * v * zero + u * s * zero - q * v * zero - zero * s * one - u * zero * zero) : S) = _
  flat_simp [hq, hu, hs, hv, us, qv]
theorem cof_flat30 (hq : IsFinite q) (hu : IsFinite u) (hs : IsFinite s) (hv : IsFinite v) (us : IsFinite (u * s)) (qv : IsFinite (q * v)) :
    num ((flatK p q u r s v).cofactor 3 0) = num (-(u * s - q * v) : S) := by
  show num (-one * (q * zero * zero + zero * v * zero + u * s * one - q * v * one - zero * s * zero - u * zero * zero) : S) = _
  flat_simp [hq, hu, hs, hv, us, qv]
theorem cof_flat01 (hr : IsFinite r) (hv : IsFinite v) :
    num ((flatK p q u r s v).cofactor 0 1) = num (-r : S) := by
  show num (-one * (r * one * one + zero * zero * zero + v * zero * zero - r * zero * zero - zero * zero * one - v * one * zero) : S) = _
  flat_simp [hr, hv]
theorem cof_flat11 (hp : IsFinite p) (hu : IsFinite u) :
    num ((flatK p q u r s v).cofactor 1 1) = num (p : S) := by
  show num (one * (p * one * one + zero * zero * zero + u * zero * zero - p * zero * zero - zero * zero * one - u * one * zero) : S) = _
  flat_simp [hp, hu]
theorem cof_flat21 (hp : IsFinite p) (hu : IsFinite u) (hr : IsFinite r) (hv : IsFinite v) (ur : IsFinite (u * r)) (pv : IsFinite (p * v)) :
    num ((flatK p q u r s v).cofactor 2 1) = num (zero : S) := by
  show num (-one * (p * zero * one + zero * v * zero + u * r * zero - p * v * zero - zero * r * one - u * zero * zero) : S) = _
  flat_simp [hp, hu, hr, hv, ur, pv]
theorem cof_flat31 (hp : IsFinite p) (hu : IsFinite u) (hr : IsFinite r) (hv : IsFinite v) (ur : IsFinite (u * r)) (pv : IsFinite (p * v)) :
    num ((flatK p q u r s v).cofactor 3 1) = num (u * r - p * v : S) := by
  show num (one * (p * zero * zero + zero * v * zero + u * r * one - p * v * one - zero * r * zero - u * zero * zero) : S) = _
  flat_simp [hp, hu, hr, hv, ur, pv]
theorem cof_flat02 (hr : IsFinite r) (hs : IsFinite s) (hv : IsFinite v) :
    num ((flatK p q u r s v).cofactor 0 2) = num (zero : S) := by
  show num (one * (r * zero * one + s * zero * zero + v * zero * zero - r * zero * zero - s * zero * one - v * zero * zero) : S) = _
  flat_simp [hr, hs, hv]
theorem cof_flat12 (hp : IsFinite p) (hq : IsFinite q) (hu : IsFinite u) :
    num ((flatK p q u r s v).cofactor 1 2) = num (zero : S) := by
  show num (-one * (p * zero * one + q * zero * zero + u * zero * zero - p * zero * zero - q * zero * one - u * zero * zero) : S) = _
  flat_simp [hp, hq, hu]
theorem cof_flat22 (hp : IsFinite p) (hq : IsFinite q) (hu : IsFinite u) (hr : IsFinite r) (hs : IsFinite s) (hv : IsFinite v) (ps : IsFinite (p * s)) (qr : IsFinite (q * r)) (us : IsFinite (u * s)) (qv : IsFinite (q * v)) (ur : IsFinite (u * r)) (pv : IsFinite (p * v)) :
    num ((flatK p q u r s v).cofactor 2 2) = num (p * s - q * r : S) := by
  show num (one * (p * s * one + q * v * zero + u * r * zero - p * v * zero - q * r * one - u * s * zero) : S) = _
  flat_simp [hp, hq, hu, hr, hs, hv, ps, qr, us, qv, ur, pv]
theorem cof_flat32 (hp : IsFinite p) (hq : IsFinite q) (hu : IsFinite u) (hr : IsFinite r) (hs : IsFinite s) (hv : IsFinite v) (ps : IsFinite (p * s)) (qr : IsFinite (q * r)) (us : IsFinite (u * s)) (qv : IsFinite (q * v)) (ur : IsFinite (u * r)) (pv : IsFinite (p * v)) :
    num ((flatK p q u r s v).cofactor 3 2) = num (zero : S) := by
  show num (-one * (p * s * zero + q * v * zero + u * r * zero - p * v * zero - q * r * zero - u * s * zero) : S) = _
  flat_simp [hp, hq, hu, hr, hs, hv, ps, qr, us, qv, ur, pv]
theorem cof_flat03 (hr : IsFinite r) (hs : IsFinite s) :
    num ((flatK p q u r s v).cofactor 0 3) = num (zero : S) := by
  show num (-one * (r * zero * zero + s * one * zero + zero * zero * zero - r * one * zero - s * zero * zero - zero * zero * zero) : S) = _
  flat_simp [hr, hs]
theorem cof_flat13 (hp : IsFinite p) (hq : IsFinite q) :
    num ((flatK p q u r s v).cofactor 1 3) = num (zero : S) := by
  show num (one * (p * zero * zero + q * one * zero + zero * zero * zero - p * one * zero - q * zero * zero - zero * zero * zero) : S) = _
  flat_simp [hp, hq]
theorem cof_flat23 (hp : IsFinite p) (hq : IsFinite q) (hr : IsFinite r) (hs : IsFinite s) (ps : IsFinite (p * s)) (qr : IsFinite (q * r)) :
    num ((flatK p q u r s v).cofactor 2 3) = num (zero : S) := by
  show num (-one * (p * s * zero + q * zero * zero + zero * r * zero - p * zero * zero - q * r * zero - zero * s * zero) : S) = _
  flat_simp [hp, hq, hr, hs, ps, qr]
theorem cof_flat33 (hp : IsFinite p) (hq : IsFinite q) (hr : IsFinite r) (hs : IsFinite s) (ps : IsFinite (p * s)) (qr : IsFinite (q * r)) :
    num ((flatK p q u r s v).cofactor 3 3) = num (p * s - q * r : S) := by
  show num (one * (p * s * one + q * zero * zero + zero * r * zero - p * zero * zero - q * r * one - zero * s * zero) : S) = _
  flat_simp [hp, hq, hr, hs, ps, qr]

theorem num_sub_neg' (a b : S) : num (a - b) = num (a + -b) := by rw [num_sub_neg, IEEE.num_add, num_neg]
theorem num_flip (a b : S) : num (-(a - b)) = num (b - a) := by
  have e1 : num (b - a) = num (b + -a) := num_sub_neg' b a
  have e2 : num (-a - -b) = num (-a + - -b) := num_sub_neg' _ _
  rw [← num_neg_sub, e2, e1, (same_add_comm (-a) (- -b)).num]
  exact num_add_congr (same_neg_neg b).num rfl
theorem det_flat (hp : IsFinite p) (hq : IsFinite q) (hu : IsFinite u) (hr : IsFinite r) (hs : IsFinite s) (hv : IsFinite v) :
    num ((flatK p q u r s v).detOf (flatK p q u r s v).adjugate) = num (p * s - q * r) := by
  show num (p * (flatK p q u r s v).cofactor 0 0 + q * (flatK p q u r s v).cofactor 0 1
      + zero * (flatK p q u r s v).cofactor 0 2 + u * (flatK p q u r s v).cofactor 0 3) = _
  have e : num (p * s - q * r) = num (p * s + q * -r) := by
    rw [num_sub_neg', IEEE.num_add, IEEE.num_add, (same_mul_neg q r).num]
  rw [n_add0 (nz_mul hu (cof_flat03 hr hs)), n_add0 ((same_mul_comm _ _).num.trans (nz_mul (finite_of_num (cof_flat02 hr hs hv) finite_zero) rfl)), e]
  exact num_add_congr (num_mul_congr rfl (cof_flat00 hs hv)) (num_mul_congr rfl (cof_flat01 hr hv))
/-- **C117**: inverting an affine matrix of the plane and its copy in space. -/
theorem C117_inverse {a : Matrix3x3 S} {b : Matrix4x4 S} (h : FlatM Z a b) (h6 : Vanishes a.m[6]) (h7 : Vanishes a.m[7]) (h8 : Z one a.m[8])
    (hf : AllFinite a) (hm : a.Moderate) (hd : IsFinite a.linDet) : Outcome (FlatM Z) a.inverse b.inverse := by
  obtain ⟨⟨⟨e0, e1, e2⟩, ⟨e3, e4, e5⟩, e6, e7, e8⟩, ⟨z2, z6, z14⟩, ⟨z8, z9, z11⟩, z10⟩ := h
  have ha : a.toReal 2 = ![0, 0, 1] := by
    rw [Matrix3x3.allFinite] at hf
    funext j
    fin_cases j
    · exact (real_of_num (hf 6 (by omega)) finite_zero (sameNumber_iff.1 h6).symm).trans real_zero
    · exact (real_of_num (hf 7 (by omega)) finite_zero (sameNumber_iff.1 h7).symm).trans real_zero
    · exact (real_of_num (hf 8 (by omega)) finite_one (sameNumber_iff.1 h8).symm).trans real_one
  have k := C108_affine2 a hf ha hm hd
  rw [Matrix3x3.allFinite] at hf
  have hp := hf 0 (by omega); have hq := hf 1 (by omega); have hu := hf 2 (by omega)
  have hr := hf 3 (by omega); have hs := hf 4 (by omega); have hv := hf 5 (by omega)
  have ps := hm 0 4 (by omega) (by omega) (by omega); have qr := hm 1 3 (by omega) (by omega) (by omega)
  have us := hm 2 4 (by omega) (by omega) (by omega); have qv := hm 1 5 (by omega) (by omega) (by omega)
  have ur := hm 2 3 (by omega) (by omega) (by omega); have pv := hm 0 5 (by omega) (by omega) (by omega)
  have hK : M4 Z (flatK a.m[0] a.m[1] a.m[2] a.m[3] a.m[4] a.m[5]) b :=
    by
    unfold M4
    exact forall_lt_16' ⟨e0, e1, z2, e2, e3, e4, z6, e5, z8, z9, z10, z11, number_trans h6 e6, number_trans h7 e7, z14, number_trans h8 e8⟩
  have o := C116_inverse4x4 hK
  have ed := det_flat hp hq hu hr hs hv
  set K := flatK a.m[0] a.m[1] a.m[2] a.m[3] a.m[4] a.m[5] with hKd
  have hz : (K.detOf K.adjugate == zero) = (a.linDet == zero) := beq_congr ed rfl
  cases z : (a.linDet == zero) with
  | true =>
    have : K.inverse = .error .mk := by
      unfold Matrix4x4.inverse
      simp only [bne, hz, z, Bool.not_true, Bool.false_eq_true, if_false]
    rw [this] at o
    rw [k.1 z]
    generalize b.inverse = B at o
    cases o
    exact .error _
  | false =>
    obtain ⟨n, hn, en⟩ := k.2 z
    rw [hn]
    have hi : ∃ N, K.inverse = .ok N ∧ N = K.adjugate / K.detOf K.adjugate := by
      unfold Matrix4x4.inverse
      simp only [bne, hz, z, Bool.not_false, if_true]
      exact ⟨_, rfl, rfl⟩
    obtain ⟨N, hN, eN⟩ := hi
    rw [hN] at o
    generalize b.inverse = B at o
    cases o with
    | ok ob =>
    refine Outcome.ok ?_
    rw [Matrix3x3.beq_iff, forall_lt_9] at en
    obtain ⟨n0, n1, n2, n3, n4, n5, n6, n7, n8⟩ := en
    have g : ∀ {x y w w' : S}, (x == y / a.linDet) = true → num w = num y → Z (w / K.detOf K.adjugate) w' → Z x w' := fun {x y w w'} hx hw hw' =>
      number_trans (sameNumber_iff.2 ((num_of_beq hx).trans (num_div_congr hw ed (val_ne_of hd z ed)).symm)) hw'
    have gz : ∀ {w w' : S}, num w = num (zero : S) → Z (w / K.detOf K.adjugate) w' → Vanishes w' := fun {w w'} hw hw' =>
      number_trans (sameNumber_iff.2 (num_of_beq (quot_zero hw ed hd z)).symm) hw'
    have g1 : ∀ {w w' : S}, num w = num a.linDet → Z (w / K.detOf K.adjugate) w' → Z one w' := fun {w w'} hw hw' =>
      number_trans (sameNumber_iff.2 (num_of_beq (quot_one hw ed hd z)).symm) hw'
    have x0 : ∀ {x : S}, (x == zero) = true → Vanishes x := fun hx => sameNumber_iff.2 (num_of_beq hx).symm
    have x1 : ∀ {x : S}, (x == one) = true → Z one x := fun hx => sameNumber_iff.2 (num_of_beq hx).symm
    have d : ∀ (i : ℕ) (hi : i < 16), Z (K.adjugate.m[i] / K.detOf K.adjugate) _ := fun i hi => by
      have := ob i hi
      rw [eN, Matrix4x4.divs] at this
      exact this
    refine ⟨⟨⟨g n0 (cof_flat00 hs hv) (d 0 (by omega)), g n1 (cof_flat10 hq hu) (d 1 (by omega)), g n2 ((cof_flat30 hq hu hs hv us qv).trans (num_flip _ _)) (d 3 (by omega))⟩,
      ⟨g n3 (cof_flat01 hr hv) (d 4 (by omega)), g n4 (cof_flat11 hp hu) (d 5 (by omega)), g n5 (cof_flat31 hp hu hr hv ur pv) (d 7 (by omega))⟩,
      number_trans (number_symm (x0 n6)) (gz (cof_flat03 hr hs) (d 12 (by omega))), number_trans (number_symm (x0 n7)) (gz (cof_flat13 hp hq) (d 13 (by omega))),
      number_trans (number_symm (x1 n8)) (g1 (cof_flat33 hp hq hr hs ps qr) (d 15 (by omega)))⟩,
      ⟨gz (cof_flat20 hq hu hs hv us qv) (d 2 (by omega)), gz (cof_flat21 hp hu hr hv ur pv) (d 6 (by omega)), gz (cof_flat23 hp hq hr hs ps qr) (d 14 (by omega))⟩,
      ⟨gz (cof_flat02 hr hs hv) (d 8 (by omega)), gz (cof_flat12 hp hq hu) (d 9 (by omega)), gz (cof_flat32 hp hq hu hr hs hv ps qr us qv ur pv) (d 11 (by omega))⟩, g1 (cof_flat22 hp hq hu hr hs hv ps qr us qv ur pv) (d 10 (by omega))⟩
/-- **C117**: so making a transform of it succeeds or fails alike. -/
theorem C117_tryFrom {a : Matrix3x3 S} {b : Matrix4x4 S} (h : FlatM Z a b) (h6 : Vanishes a.m[6]) (h7 : Vanishes a.m[7]) (h8 : Z one a.m[8])
    (hf : AllFinite a) (hm : a.Moderate) (hd : IsFinite a.linDet) : Outcome (FlatT Z) (Transform2.tryFrom a) (Transform3.tryFrom b) := by
  have k := C117_inverse h h6 h7 h8 hf hm hd
  unfold Transform2.tryFrom Transform3.tryFrom
  cases ea : a.inverse <;> cases eb : b.inverse <;> rw [ea, eb] at k <;> cases k
  · exact .error _
  · next hk => exact .ok ⟨h, hk⟩
end

end VecMath

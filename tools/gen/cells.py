L=[]
w=L.append
w('''import Verif.Spec.Cells
import Verif.Props.FloatAxis
import Verif.Props.FloatComponent
import Verif.Props.FloatCull
/-!
# Layer F: uniform grids (C99)

The cell of a point is the floor of a rounded quotient. It is monotone, it is at most one too high, and (the point of
the file) the cells of two points at most `s` apart are the same or adjacent, whatever is rounded.
-/

open Classical

namespace VecMath
open Scalar IEEE

section
variable {S : Type} [Scalar S] [IEEE S] {x y s : S}

theorem val_floor_mono (hx : ¬ IsNaN x) (hy : ¬ IsNaN y) (h : val x ≤ val y) :
    ¬ IsNaN (Scalar.floor x) ∧ ¬ IsNaN (Scalar.floor y) ∧ val (Scalar.floor x) ≤ val (Scalar.floor y) := by
  have nn : ∀ {z : S}, ¬ IsNaN z → ¬ IsNaN (Scalar.floor z) := by
    intro z hz
    by_cases hf : IsFinite z
    · exact ((floorOf z).2.2 hf).1.not_nan
    · have e : den (Scalar.floor z) = den z := (floorOf z).2.1 hf
      unfold IsNaN at *; rwa [e]
  refine ⟨nn hx, nn hy, ?_⟩
  have le : ∀ z : S, ¬ IsNaN z → val (Scalar.floor z) ≤ val z := by
    intro z hz
    by_cases hf : IsFinite z
    · obtain ⟨f, n, e, h1, -⟩ := (floorOf z).2.2 hf
      rw [f.val, hf.val, e]; exact_mod_cast h1
    · have e : den (Scalar.floor z) = den z := (floorOf z).2.1 hf
      unfold val; rw [e]
  by_cases fy : IsFinite y
  · by_cases fx : IsFinite x
    · obtain ⟨f, n, e, h1, -⟩ := (floorOf x).2.2 fx
      obtain ⟨f', n', e', -, h2⟩ := (floorOf y).2.2 fy
      rw [f.val, f'.val, e, e']
      rw [fx.val, fy.val, EReal.coe_le_coe_iff] at h
      exact_mod_cast h2 n (h1.trans h)
    · have e : den (Scalar.floor x) = den x := (floorOf x).2.1 fx
      have e' : val (Scalar.floor x) = val x := by unfold val; rw [e]
      obtain ⟨b, hb⟩ := isInf_iff.2 ⟨hx, fx⟩
      have : val x = ⊥ := by
        cases b
        · have : val x = ⊤ := by unfold val; rw [hb]; rfl
          rw [this, fy.val] at h
          exact absurd h (not_le.2 (EReal.coe_lt_top _))
        · unfold val; rw [hb]; rfl
      rw [e', this]; exact bot_le
  · have e : den (Scalar.floor y) = den y := (floorOf y).2.1 fy
    have : val (Scalar.floor y) = val y := by unfold val; rw [e]
    rw [this]
    exact (le x hx).trans h
/-- Cells of ordered coordinates are ordered. -/
theorem cell_mono (hs : IsFinite s) (h0 : (zero <? s) = true) (h : (x ≤? y) = true) :
    (Scalar.floor (x / s) ≤? Scalar.floor (y / s)) = true := by
  obtain ⟨hx, hy, hv⟩ := le_iff.1 h
  have s0 : 0 < real s := by
    have := (lt_iff.1 h0).2.2
    rw [finite_zero.val, hs.val, real_zero] at this
    exact_mod_cast this
  exact le_iff.2 (val_floor_mono (not_nan_div hx hs s0.ne') (not_nan_div hy hs s0.ne') (val_div_mono hv hx hy hs s0))
theorem pos_real (hs : IsFinite s) (h0 : (zero <? s) = true) : 0 < real s := by
  have := (lt_iff.1 h0).2.2
  rw [finite_zero.val, hs.val, real_zero] at this
  exact_mod_cast this

variable [Binary S]
/-- The number of cells in each direction from the origin that are told apart reliably: `2^23` for `f32`, `2^52` for `f64`. -/
noncomputable def cellLimit (S : Type) [Scalar S] [IEEE S] [Binary S] : ℝ := 2 ^ ((Binary.F S).p - 1)

theorem cellLimit_eq : cellLimit S = ((2 ^ ((Binary.F S).p - 1) : ℤ) : ℝ) := by unfold cellLimit; push_cast; rfl
theorem limit_lt_overflow : cellLimit S < overflowAt S := by
  have h1 : cellLimit S ≤ 2 ^ ((Binary.F S).emax - 1) := by
    unfold cellLimit
    rw [← zpow_natCast]
    refine Fmt.z_le ?_
    have := (Binary.F S).hmax
    have := (Binary.F S).hp
    omega
  exact h1.trans_lt half_le_overflow
/-- The cell of a coordinate: the floor of the rounded quotient, which lies between the floor of the exact quotient and
the next integer. -/
theorem cell_spec (hx : IsFinite x) (hs : IsFinite s) (s0 : 0 < real s) (h : |real x| < cellLimit S * real s) :
    IsFinite (x / s) ∧ real (x / s) = (Binary.F S).rnd (real x / real s) ∧ IsFinite (Scalar.floor (x / s)) ∧
    real (Scalar.floor (x / s)) = ⌊real (x / s)⌋ ∧ ⌊real x / real s⌋ ≤ ⌊real (x / s)⌋ ∧
    real (x / s) ≤ ((⌊real x / real s⌋ + 1 : ℤ) : ℝ) ∧ -(2 ^ ((Binary.F S).p - 1) : ℤ) ≤ ⌊real x / real s⌋ ∧
    ⌊real x / real s⌋ + 1 ≤ 2 ^ ((Binary.F S).p - 1) := by
  have hp := (Binary.F S).hp
  have q : |real x / real s| < cellLimit S := by rw [abs_div, abs_of_pos s0, div_lt_iff₀ s0]; exact h
  have fq : IsFinite (x / s) := (correct_div hx hs s0.ne').1.2 (q.trans limit_lt_overflow)
  have rq := real_div hx hs s0.ne' fq
  rw [rnd_eq] at rq
  obtain ⟨ff, n, en, h1, h2⟩ := (floorOf (x / s)).2.2 fq
  have en' : ⌊real (x / s)⌋ = n := le_antisymm (h2 _ (Int.floor_le _)) (Int.le_floor.2 h1)
  obtain ⟨q1, q2⟩ := abs_lt.1 q
  rw [cellLimit_eq] at q1 q2
  have t1 : -(2 ^ ((Binary.F S).p - 1) : ℤ) ≤ ⌊real x / real s⌋ := Int.le_floor.2 (by push_cast at q1 ⊢; exact q1.le)
  have t2 : ⌊real x / real s⌋ + 1 ≤ 2 ^ ((Binary.F S).p - 1) := Int.add_one_le_iff.2 (Int.floor_lt.2 q2)
  have two : (2 : ℤ) ^ (Binary.F S).p = 2 * 2 ^ ((Binary.F S).p - 1) := by rw [← pow_succ']; congr 1; omega
  have pow1 : (1 : ℤ) ≤ 2 ^ ((Binary.F S).p - 1) := one_le_pow₀ (by norm_num)
  refine ⟨fq, rq, ff, by rw [en', en], ?_, ?_, t1, t2⟩
  · rw [Int.le_floor, rq, ← (Binary.F S).rnd_of_has (Fmt.has_int (F := Binary.F S) (m := ⌊real x / real s⌋) (by rw [abs_le]; omega))]
    exact (Binary.F S).rnd_mono (Int.floor_le _)
  · rw [rq, ← (Binary.F S).rnd_of_has (Fmt.has_int (F := Binary.F S) (m := ⌊real x / real s⌋ + 1) (by rw [abs_le]; omega))]
    exact (Binary.F S).rnd_mono (by push_cast; exact (Int.lt_floor_add_one _).le)
/-- Where the cell is one too high, the exact quotient is a rounding error below it. -/
theorem cell_where (hx : IsFinite x) (hs : IsFinite s) (s0 : 0 < real s) (h : |real x| < cellLimit S * real s) :
    IsFinite (Scalar.floor (x / s)) ∧ ∃ k : ℤ, real (Scalar.floor (x / s)) = k ∧ real x < (k + 1) * real s ∧
      (k * real s ≤ real x ∨ (k - 1) * real s ≤ real x ∧ k - real x / real s ≤ uro S * |real x / real s| + tiny S) := by
  obtain ⟨fq, -, ff, e, h1, h2, -, -⟩ := cell_spec hx hs s0 h
  refine ⟨ff, _, e, ?_, ?_⟩
  · have := Int.lt_floor_add_one (real x / real s)
    rw [← div_lt_iff₀ s0]
    have : (⌊real x / real s⌋ : ℝ) ≤ ⌊real (x / s)⌋ := by exact_mod_cast h1
    linarith
  · rcases h1.eq_or_lt with he | he
    · left; rw [← le_div_iff₀ s0, ← he]; exact Int.floor_le _
    · right
      have h3 : ⌊real (x / s)⌋ = ⌊real x / real s⌋ + 1 := by
        have : ⌊real (x / s)⌋ ≤ ⌊real x / real s⌋ + 1 := by exact_mod_cast (Int.floor_le _).trans h2
        omega
      refine ⟨?_, ?_⟩
      · rw [← le_div_iff₀ s0, h3]; push_cast
        have := Int.floor_le (real x / real s)
        linarith
      · have er := err_div hx hs s0.ne' fq
        have h4 := Int.floor_le (real (x / s))
        have := (abs_le.1 er).2
        linarith
/-- For a cell size that is a power of two the cell is the right one. -/
theorem cell_exact {j : ℤ} (hx : IsFinite x) (hs : IsFinite s) (hj : real s = 2 ^ j) (h : |real x| < cellLimit S * real s)
    (hu : 0 ≤ real x ∨ j ≤ 0 ∨ Normal S (real x / real s)) :
    ∃ k : ℤ, real (Scalar.floor (x / s)) = k ∧ k * real s ≤ real x ∧ real x < (k + 1) * real s := by
  have s0 : 0 < real s := by rw [hj]; exact Fmt.z_pos j
  obtain ⟨fq, rq, ff, e, h1, h2, -, -⟩ := cell_spec hx hs s0 h
  have fin : ⌊real (x / s)⌋ = ⌊real x / real s⌋ → ∃ k : ℤ, real (Scalar.floor (x / s)) = k ∧ k * real s ≤ real x ∧ real x < (k + 1) * real s := by
    intro he
    refine ⟨_, e, ?_, ?_⟩
    · rw [← le_div_iff₀ s0, he]; exact Int.floor_le _
    · rw [← div_lt_iff₀ s0, he]; exact Int.lt_floor_add_one _
  have has := isFinite_has hx
  have low : (Binary.F S).emin ≤ (Binary.F S).ex (real x) - j → ⌊real (x / s)⌋ = ⌊real x / real s⌋ := by
    intro hl
    congr 1
    rw [rq]
    refine (Binary.F S).rnd_of_has ?_
    have hm := (Binary.F S).has_rnd (real x)
    rw [(Binary.F S).rnd_of_has has] at hm
    refine ⟨rne (real x / 2 ^ (Binary.F S).ex (real x)), (Binary.F S).ex (real x) - j, hl, ?_, ?_⟩
    · have h := abs_lt.1 ((Binary.F S).abs_lt_ex (real x))
      have e' : (2 : ℝ) ^ ((Binary.F S).p : ℤ) = ((2 ^ (Binary.F S).p : ℤ) : ℝ) := by push_cast; rw [zpow_natCast]
      rw [e'] at h
      rw [abs_le]
      constructor
      · have := rne_mono h.1.le
        rwa [← Int.cast_neg, rne_int] at this
      · have := rne_mono h.2.le
        rwa [rne_int] at this
    · have := (Binary.F S).rnd_of_has has
      rw [hj, zpow_sub₀ (by norm_num), ← mul_div_assoc]
      congr 1
      exact this.symm
  have norm : Normal S (real x / real s) → ⌊real (x / s)⌋ = ⌊real x / real s⌋ := by
    rintro (h0 | hn)
    · rw [rq, h0, Fmt.rnd_zero]
    · refine low ?_
      have : (2 : ℝ) ^ ((Binary.F S).emin + (Binary.F S).p - 1 + j) ≤ |real x| := by
        rw [abs_div, abs_of_pos s0, le_div_iff₀ s0, hj] at hn
        unfold minNormal at hn
        rw [Fmt.z_add]; exact hn
      have := (Binary.F S).ex_ge this
      omega
  by_cases hn : Normal S (real x / real s)
  · exact fin (norm hn)
  rcases hu with h0 | h0 | h0
  · -- a tiny non-negative coordinate
    have lt1 : real x / real s < 1 := by
      by_contra hc
      refine hn (.inr ?_)
      have h5 : minNormal S ≤ 1 := by
        unfold minNormal
        have : (Binary.F S).emin + (Binary.F S).p - 1 ≤ 0 := by have := (Binary.F S).emin_le_p; omega
        have := Fmt.z_le this
        simpa using this
      exact (h5.trans (not_lt.1 hc)).trans (le_abs_self _)
    have pos : 0 ≤ real x / real s := div_nonneg h0 s0.le
    have e0 : ⌊real x / real s⌋ = 0 := by rw [Int.floor_eq_iff]; norm_num; exact ⟨pos, lt1⟩
    refine fin ?_
    rw [e0, Int.floor_eq_iff, rq]
    have b := Fmt.quotient_below (F := Binary.F S) (e := 0) has (isFinite_has hs) s0 le_rfl (by
      rw [zpow_zero, one_mul]; rwa [div_lt_one s0] at lt1)
    rw [zpow_zero] at b
    norm_num
    exact ⟨(Binary.F S).rnd_nonneg pos, b⟩
  · exact fin (low (by have := (Binary.F S).emin_le_ex (real x); omega))
  · exact absurd h0 hn
/-- **The cells of coordinates at most `s` apart are equal or adjacent.** -/
theorem cell_near (hx : IsFinite x) (hy : IsFinite y) (hs : IsFinite s) (s0 : 0 < real s) (bx : |real x| < cellLimit S * real s)
    (by' : |real y| < cellLimit S * real s) (h : |real x - real y| ≤ real s) :
    |real (Scalar.floor (x / s)) - real (Scalar.floor (y / s))| ≤ 1 := by
  have key : ∀ {x y : S}, IsFinite x → IsFinite y → |real x| < cellLimit S * real s → |real y| < cellLimit S * real s →
      real y ≤ real x + real s → real (Scalar.floor (y / s)) ≤ real (Scalar.floor (x / s)) + 1 := by
    intro x y hx hy bx b' h
    obtain ⟨-, rx, -, ex, x1, -, x3, -⟩ := cell_spec hx hs s0 bx
    obtain ⟨-, ry, -, ey, -, y2, -, y4⟩ := cell_spec hy hs s0 b'
    rw [ex, ey]
    by_contra hc
    rw [not_le] at hc
    have hc : ⌊real (x / s)⌋ + 1 < ⌊real (y / s)⌋ := by exact_mod_cast hc
    have y5 : ⌊real (y / s)⌋ ≤ ⌊real y / real s⌋ + 1 := by exact_mod_cast (Int.floor_le _).trans y2
    have := Fmt.quotient_step (F := Binary.F S) (isFinite_has hx) (isFinite_has hy) (isFinite_has hs) s0 h
      (m := ⌊real (x / s)⌋ + 1) (by omega) (by omega) (by
        rw [← ry]
        exact (show ((⌊real (x / s)⌋ + 1 + 1 : ℤ) : ℝ) ≤ ⌊real (y / s)⌋ by exact_mod_cast hc).trans (Int.floor_le _))
    rw [← rx] at this
    have := Int.le_floor.2 this
    omega
  obtain ⟨h1, h2⟩ := abs_le.1 h
  have a := key hx hy bx by' (by linarith)
  have b := key hy hx by' bx (by linarith)
  rw [abs_le]
  constructor <;> linarith
/-- A computed difference below `s` is an exact difference of at most `s`. -/
theorem sub_lt_real (hx : IsFinite x) (hy : IsFinite y) (hd : IsFinite (x - y)) (hs : IsFinite s) (h : |real (x - y)| < real s) :
    |real x - real y| ≤ real s := by
  have r := real_sub hd
  rw [rnd_eq] at r
  have rs := (Binary.F S).rnd_of_has (isFinite_has hs)
  rw [abs_lt] at h
  rw [abs_le]
  constructor
  · by_contra hc
    have := (Binary.F S).rnd_mono (not_le.1 hc).le
    rw [Fmt.rnd_neg, rs, ← r] at this
    linarith
  · by_contra hc
    have := (Binary.F S).rnd_mono (not_le.1 hc).le
    rw [rs, ← r] at this
    linarith
end
''')
X='xyz'
for n in (2,3):
    D=[X[k].upper() for k in range(n)]
    def tup(f): return '⟨'+', '.join(f(k) for k in range(n))+'⟩'
    def pr(h,k): return h+('.2'*k)+('.1' if k<n-1 else '')
    w(f'''
section
variable {{S : Type}} [Scalar S] [IEEE S]
/-! ## {n}D -/
/-- **C99**, {n}D: points in componentwise order have cells in componentwise order. -/
theorem C99_order{n} (p q : Point{n} S) (s : S) (hs : IsFinite s) (h0 : (zero <? s) = true) (h : LeAll p q) :
    LeAll (p.cell s) (q.cell s) := by
  rw [Point{n}.leAll] at h ⊢
  exact {tup(lambda k: f"cell_mono hs h0 {pr('h',k)}")}
/-- **C99**, {n}D: the cells from that of the minimum to that of the maximum corner of a box are enough to find every point
of the box. -/
theorem C99_query{n} (b : BoundingBox{n} S) (p : Point{n} S) (s : S) (hs : IsFinite s) (h0 : (zero <? s) = true)
    (h : b.isInside p = true) : (⟨b.min.cell s, b.max.cell s⟩ : BoundingBox{n} S).isInside (p.cell s) = true := by
  rw [isInside{n}_iff] at h ⊢
  exact {tup(lambda k: f"⟨cell_mono hs h0 {pr('h',k)}.1, cell_mono hs h0 {pr('h',k)}.2⟩")}
variable [Binary S]
theorem cell_index{n} (p : Point{n} S) (s : S) (d : Dimension{n}) : (p.cell s).index d = Scalar.floor (p.index d / s) := by
  cases d <;> rfl
theorem finite_index{n} {{p : Point{n} S}} (h : AllFinite p) (d : Dimension{n}) : IsFinite (p.index d) := by
  rw [Point{n}.allFinite] at h
  cases d
  exacts [{', '.join(pr('h',k) for k in range(n))}]
/-- **C99**, {n}D: the cell coordinates are integers. A point is never put below its cell, and above it by one cell at most,
and then only if it is within a rounding error of the boundary. -/
theorem C99_where{n} (p : Point{n} S) (s : S) (hp : AllFinite p) (hs : IsFinite s) (h0 : (zero <? s) = true) (d : Dimension{n})
    (hl : |real (p.index d)| < cellLimit S * real s) :
    IsFinite ((p.cell s).index d) ∧ ∃ k : ℤ, real ((p.cell s).index d) = k ∧ real (p.index d) < (k + 1) * real s ∧
      (k * real s ≤ real (p.index d) ∨ (k - 1) * real s ≤ real (p.index d) ∧
        k - real (p.index d) / real s ≤ uro S * |real (p.index d) / real s| + tiny S) := by
  rw [cell_index{n}]
  exact cell_where (finite_index{n} hp d) hs (pos_real hs h0) hl
/-- **C99**, {n}D: if the cell size is a power of two, the cell is the right one: `k s ≤ p < (k + 1) s`. The only exception
are negative coordinates so small that the quotient underflows. -/
theorem C99_exact{n} (p : Point{n} S) (s : S) (j : ℤ) (hp : AllFinite p) (hs : IsFinite s) (hj : real s = 2 ^ j) (d : Dimension{n})
    (hl : |real (p.index d)| < cellLimit S * real s)
    (hu : 0 ≤ real (p.index d) ∨ j ≤ 0 ∨ Normal S (real (p.index d) / real s)) :
    ∃ k : ℤ, real ((p.cell s).index d) = k ∧ k * real s ≤ real (p.index d) ∧ real (p.index d) < (k + 1) * real s := by
  rw [cell_index{n}]
  exact cell_exact (finite_index{n} hp d) hs hj hl hu
/-- **C99**, {n}D: points whose coordinates differ by at most the cell size are in the same or in adjacent cells, for every
cell size. -/
theorem C99_neighbours{n} (p q : Point{n} S) (s : S) (hp : AllFinite p) (hq : AllFinite q) (hs : IsFinite s) (h0 : (zero <? s) = true)
    (lp : ∀ d, |real (p.index d)| < cellLimit S * real s) (lq : ∀ d, |real (q.index d)| < cellLimit S * real s)
    (h : ∀ d, |real (p.index d) - real (q.index d)| ≤ real s) (d : Dimension{n}) :
    |real ((p.cell s).index d) - real ((q.cell s).index d)| ≤ 1 := by
  rw [cell_index{n}, cell_index{n}]
  exact cell_near (finite_index{n} hp d) (finite_index{n} hq d) hs (pos_real hs h0) (lp d) (lq d) (h d)
/-- **C99**, {n}D: points with a computed distance below the cell size are in the same or in adjacent cells. -/
theorem C99_within{n} (p q : Point{n} S) (s : S) (hp : AllFinite p) (hq : AllFinite q) (hs : IsFinite s) (h0 : (zero <? s) = true)
    (hn : minNormal S ≤ real s ^ 2)
    (lp : ∀ d, |real (p.index d)| < cellLimit S * real s) (lq : ∀ d, |real (q.index d)| < cellLimit S * real s)
    (h : (Api.distance p q <? s) = true) (d : Dimension{n}) :
    |real ((p.cell s).index d) - real ((q.cell s).index d)| ≤ 1 := by
  have s0 := pos_real hs h0
  obtain ⟨hdn, -, hlt⟩ := lt_iff.1 h
  have fl : IsFinite (Api.distance p q) := by
    by_contra hc
    obtain ⟨b, hb⟩ := isInf_iff.2 ⟨hdn, hc⟩
    have nn : 0 ≤ val (Api.distance p q) := by simpa using (le_iff.1 ((C15_float{n} p q).2 hdn)).2.2
    cases b
    · have : val (Api.distance p q) = ⊤ := by unfold val; rw [hb]; rfl
      rw [this] at hlt
      exact absurd hlt not_top_lt
    · have : val (Api.distance p q) = ⊥ := by unfold val; rw [hb]; rfl
      rw [this] at nn
      simp at nn
  have fdot : IsFinite (Api.dot (q - p : Vector{n} S) (q - p : Vector{n} S) : S) := (finite_of_sqrt fl).1
  have fv : AllFinite (q - p : Vector{n} S) := FVGOAL
  rw [fl.val, hs.val, EReal.coe_lt_coe_iff] at hlt
  refine C99_neighbours{n} p q s hp hq hs h0 lp lq (fun d => ?_) d
  have ix : (q - p : Vector{n} S).index d = q.index d - p.index d := by cases d <;> rfl
  have fd : ∀ d, IsFinite ((q - p : Vector{n} S).index d) := by
    intro d
    rw [Vector{n}.allFinite] at fv
    cases d
    exacts [{', '.join(pr('fv',k) for k in range(n))}]
  rw [abs_sub_comm]
  have fdd := fd d
  rw [ix] at fdd
  refine sub_lt_real (finite_index{n} hq d) (finite_index{n} hp d) fdd hs ?_
  rw [← ix]
  by_cases he : ∃ e, minNormal S ≤ real ((q - p : Vector{n} S).index e) ^ 2
  · obtain ⟨e, he⟩ := he
    have := C98_distance{n} p q fv e he d
    rw [le_iff_real (finite_abs.2 (fd d)) fl, real_abs] at this
    exact this.trans_lt hlt
  · rw [not_exists] at he
    have := (not_le.1 (he d)).trans_le hn
    exact abs_lt_of_sq_lt_sq this s0.le
end
''')
w('end VecMath')
s='\n'.join(L)
s=s.replace("FVGOAL","FVG",0)
fv2='''by
    have h := finite_of_add (show IsFinite ((q - p : Vector2 S).x * (q - p : Vector2 S).x + (q - p : Vector2 S).y * (q - p : Vector2 S).y) from fdot)
    exact Vector2.allFinite.2 ⟨(finite_of_mul h.1).1, (finite_of_mul h.2).1⟩'''
fv3='''by
    have h := finite_of_add (show IsFinite ((q - p : Vector3 S).x * (q - p : Vector3 S).x + (q - p : Vector3 S).y * (q - p : Vector3 S).y + (q - p : Vector3 S).z * (q - p : Vector3 S).z) from fdot)
    have h' := finite_of_add h.1
    exact Vector3.allFinite.2 ⟨(finite_of_mul h'.1).1, (finite_of_mul h'.2).1, (finite_of_mul h.2).1⟩'''
s=s.replace("FVGOAL",fv2,1).replace("FVGOAL",fv3,1)
open('/verif/lean/Verif/Props/FloatCells.lean','w').write(s)

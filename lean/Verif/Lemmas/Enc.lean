import Verif.Lemmas.Mono
/-!
# A rounded sum of monotone terms is enclosed by its values at the corners

The value of `a * x + b * y + …` (each operation rounded) at a point of a box lies between its values at two corners
of the box, exactly as computed.
-/

namespace VecMath
open Scalar IEEE

variable {S : Type} [Scalar S] [IEEE S] {α β : Type}

/-- `u p` is a number between the values of `u` at two members of `A`. -/
def Enc (u : α → S) (A : Set α) (p : α) : Prop :=
  ¬ IsNaN (u p) ∧ (∃ e ∈ A, val (u e) ≤ val (u p)) ∧ (∃ f ∈ A, val (u p) ≤ val (u f))

theorem Enc.const {d : S} (hd : ¬ IsNaN d) : Enc (fun _ : Unit => d) Set.univ () :=
  ⟨hd, ⟨(), trivial, le_rfl⟩, ⟨(), trivial, le_rfl⟩⟩

theorem Enc.mul {a lo hi x : S} (ha : IsFinite a) (hl : IsFinite lo) (hh : IsFinite hi) (hx : IsFinite x)
    (h1 : real lo ≤ real x) (h2 : real x ≤ real hi) : Enc (fun x => a * x) {lo, hi} x := by
  have key : ∀ {y z : S}, IsFinite y → IsFinite z → real a * real y ≤ real a * real z → val (a * y) ≤ val (a * z) := by
    intro y z hy hz h
    unfold val; rw [mul_finite ha hy, mul_finite ha hz]
    exact Rounding.finish_mono _ h
  refine ⟨?_, ?_, ?_⟩
  · show ¬ IsNaN (a * x)
    unfold IsNaN; rw [mul_finite ha hx]; exact Rounding.finish_ne_nan _ _ _
  · rcases le_total 0 (real a) with h | h
    · exact ⟨lo, by simp, key hl hx (mul_le_mul_of_nonneg_left h1 h)⟩
    · exact ⟨hi, by simp, key hh hx (mul_le_mul_of_nonpos_left h2 h)⟩
  · rcases le_total 0 (real a) with h | h
    · exact ⟨hi, by simp, key hx hh (mul_le_mul_of_nonneg_left h2 h)⟩
    · exact ⟨lo, by simp, key hx hl (mul_le_mul_of_nonpos_left h1 h)⟩

/-- A sum of numbers is NaN only for opposite infinities. -/
theorem nan_add_iff {a b : S} (ha : ¬ IsNaN a) (hb : ¬ IsNaN b) :
    IsNaN (a + b) ↔ (val a = ⊤ ∧ val b = ⊥) ∨ (val a = ⊥ ∧ val b = ⊤) := by
  unfold IsNaN val at *
  rw [den_add]
  generalize den a = v at *
  generalize den b = w at *
  induction v using Val.cases_inf_fin with
  | hn => exact (ha rfl).elim
  | hi s =>
    induction w using Val.cases_inf_fin with
    | hn => exact (hb rfl).elim
    | hi t => cases s <;> cases t <;> simp
    | hf w hw => rw [Rounding.add_inf_fin _ _ hw]; cases s <;> simp [hw.ereal]
  | hf v hv =>
    induction w using Val.cases_inf_fin with
    | hn => exact (hb rfl).elim
    | hi t => rw [Rounding.add_fin_inf _ hv]; cases t <;> simp [hv.ereal]
    | hf w hw => rw [Rounding.add_fin _ hv hw]; simp [hv.ereal, hw.ereal, Rounding.finish_ne_nan]

/-- If the sums at all the corners are numbers, the sum at the point is a number between two of them. -/
theorem Enc.add {u : α → S} {v : β → S} {A : Set α} {B : Set β} {p : α} {q : β} (hu : Enc u A p) (hv : Enc v B q)
    (hn : ∀ a ∈ A, ∀ b ∈ B, ¬ IsNaN (u a + v b)) : Enc (fun x : α × β => u x.1 + v x.2) (A ×ˢ B) (p, q) := by
  obtain ⟨n1, ⟨e, he, le⟩, ⟨f, hf, lf⟩⟩ := hu
  obtain ⟨n2, ⟨e', he', le'⟩, ⟨f', hf', lf'⟩⟩ := hv
  have hp : ¬ IsNaN (u p + v q) := by
    rw [nan_add_iff n1 n2]
    rintro (⟨h1, h2⟩ | ⟨h1, h2⟩)
    · refine hn f hf e' he' ?_
      have k := nan_of_add (hn f hf e' he')
      rw [nan_add_iff k.1 k.2]
      exact .inl ⟨top_le_iff.1 (h1 ▸ lf), le_bot_iff.1 (h2 ▸ le')⟩
    · refine hn e he f' hf' ?_
      have k := nan_of_add (hn e he f' hf')
      rw [nan_add_iff k.1 k.2]
      exact .inr ⟨le_bot_iff.1 (h1 ▸ le), top_le_iff.1 (h2 ▸ lf')⟩
  exact ⟨hp, ⟨(e, e'), ⟨he, he'⟩, val_add_mono le le' (hn e he e' he') hp⟩,
    ⟨(f, f'), ⟨hf, hf'⟩, val_add_mono lf lf' hp (hn f hf f' hf')⟩⟩

/-- One row of a two-dimensional affine map. -/
theorem enc_row2 {a b d x0 x1 y0 y1 x y : S} (ha : IsFinite a) (hb : IsFinite b) (hd : IsFinite d)
    (fx0 : IsFinite x0) (fx1 : IsFinite x1) (fy0 : IsFinite y0) (fy1 : IsFinite y1) (fx : IsFinite x) (fy : IsFinite y)
    (hx : real x0 ≤ real x ∧ real x ≤ real x1) (hy : real y0 ≤ real y ∧ real y ≤ real y1)
    (hn : ∀ e ∈ ({x0, x1} : Set S), ∀ f ∈ ({y0, y1} : Set S), ¬ IsNaN (a * e + b * f + d)) :
    ¬ IsNaN (a * x + b * y + d) ∧
    (∃ e ∈ ({x0, x1} : Set S), ∃ f ∈ ({y0, y1} : Set S), val (a * e + b * f + d) ≤ val (a * x + b * y + d)) ∧
    (∃ e ∈ ({x0, x1} : Set S), ∃ f ∈ ({y0, y1} : Set S), val (a * x + b * y + d) ≤ val (a * e + b * f + d)) := by
  have k1 := (Enc.mul ha fx0 fx1 fx hx.1 hx.2).add (Enc.mul hb fy0 fy1 fy hy.1 hy.2)
    (fun e he f hf => (nan_of_add (hn e he f hf)).1)
  obtain ⟨k, ⟨e, he, le⟩, ⟨f, hf, lf⟩⟩ := k1.add (Enc.const hd.not_nan) (fun e he _ _ => hn e.1 he.1 e.2 he.2)
  exact ⟨k, ⟨e.1.1, he.1.1, e.1.2, he.1.2, le⟩, ⟨f.1.1, hf.1.1, f.1.2, hf.1.2, lf⟩⟩

/-- One row of a three-dimensional affine map. -/
theorem enc_row3 {a b c d x0 x1 y0 y1 z0 z1 x y z : S} (ha : IsFinite a) (hb : IsFinite b) (hc : IsFinite c)
    (hd : IsFinite d) (fx0 : IsFinite x0) (fx1 : IsFinite x1) (fy0 : IsFinite y0) (fy1 : IsFinite y1)
    (fz0 : IsFinite z0) (fz1 : IsFinite z1) (fx : IsFinite x) (fy : IsFinite y) (fz : IsFinite z)
    (hx : real x0 ≤ real x ∧ real x ≤ real x1) (hy : real y0 ≤ real y ∧ real y ≤ real y1)
    (hz : real z0 ≤ real z ∧ real z ≤ real z1)
    (hn : ∀ e ∈ ({x0, x1} : Set S), ∀ f ∈ ({y0, y1} : Set S), ∀ g ∈ ({z0, z1} : Set S),
      ¬ IsNaN (a * e + b * f + c * g + d)) :
    ¬ IsNaN (a * x + b * y + c * z + d) ∧
    (∃ e ∈ ({x0, x1} : Set S), ∃ f ∈ ({y0, y1} : Set S), ∃ g ∈ ({z0, z1} : Set S),
      val (a * e + b * f + c * g + d) ≤ val (a * x + b * y + c * z + d)) ∧
    (∃ e ∈ ({x0, x1} : Set S), ∃ f ∈ ({y0, y1} : Set S), ∃ g ∈ ({z0, z1} : Set S),
      val (a * x + b * y + c * z + d) ≤ val (a * e + b * f + c * g + d)) := by
  have k1 := (Enc.mul ha fx0 fx1 fx hx.1 hx.2).add (Enc.mul hb fy0 fy1 fy hy.1 hy.2)
    (fun e he f hf => (nan_of_add (nan_of_add (hn e he f hf z0 (by simp))).1).1)
  have k2 := k1.add (Enc.mul hc fz0 fz1 fz hz.1 hz.2) (fun e he g hg => (nan_of_add (hn e.1 he.1 e.2 he.2 g hg)).1)
  obtain ⟨k, ⟨e, he, le⟩, ⟨f, hf, lf⟩⟩ := k2.add (Enc.const hd.not_nan)
    (fun e he _ _ => hn e.1.1 he.1.1 e.1.2 he.1.2 e.2 he.2)
  exact ⟨k, ⟨e.1.1.1, he.1.1.1, e.1.1.2, he.1.1.2, e.1.2, he.1.2, le⟩,
    ⟨f.1.1.1, hf.1.1.1, f.1.1.2, hf.1.1.2, f.1.2, hf.1.2, lf⟩⟩
end VecMath

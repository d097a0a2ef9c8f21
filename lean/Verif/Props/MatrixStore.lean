import Verif.Props.Structural
/-!
# Matrix element access (layer G): C38, C39, C42 and the element description of transpose (C40)
-/

set_option linter.unusedSectionVars false

namespace VecMath
open Scalar
variable {S : Type} [Scalar S]

/-! ## Matrix3x3 -/

namespace Matrix3x3

theorem linearIndex_ok (b : Build) {r c : UInt32} (hr : r < 3) (hc : c < 3) :
    linearIndex b r c = .ok (r.toNat * 3 + c.toNat) := by
  have hr' : r.toNat < 3 := hr
  have hc' : c.toNat < 3 := hc
  unfold linearIndex
  simp only [hr, hc, not_true_eq_false, and_false, if_false]
  congr 1
  simp [UInt32.toNat_add, UInt32.toNat_mul]
  omega

/-- Reading at a valid position, in either build profile, gives the row-major array element. -/
theorem get_ok (m : Matrix3x3 S) (b : Build) {r c : UInt32} (hr : r < 3) (hc : c < 3) :
    m.get b r c = .ok (m.m[r.toNat * 3 + c.toNat]'(by
      have hr' : r.toNat < 3 := hr
      have hc' : c.toNat < 3 := hc
      omega)) := by
  have hr' : r.toNat < 3 := hr
  have hc' : c.toNat < 3 := hc
  unfold get
  rw [linearIndex_ok b hr hc]
  simp only [bind, Except.bind]
  rw [dif_pos (by omega)]

theorem getMut_ok (m : Matrix3x3 S) (b : Build) {r c : UInt32} (hr : r < 3) (hc : c < 3)
    (f : S → S) : ∃ m', m.getMut b r c f = .ok m' ∧
      ∀ (i : ℕ) (hi : i < 9), m'.m[i] =
        if r.toNat * 3 + c.toNat = i then f m.m[i] else m.m[i] := by
  have hr' : r.toNat < 3 := hr
  have hc' : c.toNat < 3 := hc
  refine ⟨⟨m.m.set (r.toNat * 3 + c.toNat) (f (m.m[r.toNat * 3 + c.toNat]'(by omega)))
    (by omega)⟩, ?_, ?_⟩
  · unfold getMut
    rw [linearIndex_ok b hr hc]
    simp only [bind, Except.bind]
    rw [dif_pos (by omega)]
  · intro i hi
    rw [Vector.getElem_set]
    split_ifs with h
    · subst h; rfl
    · rfl

theorem set_eq_getMut (m : Matrix3x3 S) (b : Build) (r c : UInt32) (s : S) :
    m.set b r c s = m.getMut b r c (fun _ => s) := rfl

end Matrix3x3

/-- One write to a matrix: `m.set(row, col, v)`, or `*m.get_mut(row, col) = f(*m.get_mut(row, col))`. -/
inductive Matrix3x3Write (S : Type)
  | set (row col : UInt32) (value : S)
  | getMut (row col : UInt32) (f : S → S)

namespace Matrix3x3Write
/-- The position written. -/
def pos : Matrix3x3Write S → UInt32 × UInt32
  | .set r c _ => (r, c)
  | .getMut r c _ => (r, c)
/-- The new value at the position, given the old one. -/
def upd : Matrix3x3Write S → S → S
  | .set _ _ v => fun _ => v
  | .getMut _ _ f => f
/-- Row and column are in range. -/
def Valid (w : Matrix3x3Write S) : Prop := w.pos.1 < 3 ∧ w.pos.2 < 3
/-- Performing the write with the crate's API. -/
def run (b : Build) (m : Matrix3x3 S) : Matrix3x3Write S → Except Panic (Matrix3x3 S)
  | .set r c v => m.set b r c v
  | .getMut r c f => m.getMut b r c f
end Matrix3x3Write

/-- Specification: a matrix is a map from positions to elements, and a write changes one of them. -/
def Matrix3x3Write.spec (store : UInt32 → UInt32 → S) (w : Matrix3x3Write S) : UInt32 → UInt32 → S :=
  fun r c => if (r, c) = w.pos then w.upd (store r c) else store r c

/-- **C38**: starting from a matrix whose elements are those of `store`, any history of writes at valid
positions succeeds in both build profiles, and afterwards `get` at any valid position returns what the
map holds after the same history. -/
theorem C38_matrix3x3_history (b : Build) (m : Matrix3x3 S) (store : UInt32 → UInt32 → S)
    (h0 : ∀ r c, r < 3 → c < 3 → m.get b r c = .ok (store r c))
    (history : List (Matrix3x3Write S)) (hv : ∀ w ∈ history, w.Valid) :
    ∃ m', history.foldlM (Matrix3x3Write.run b) m = .ok m' ∧
      ∀ r c, r < 3 → c < 3 →
        m'.get b r c = .ok (history.foldl Matrix3x3Write.spec store r c) := by
  induction history generalizing m store with
  | nil => exact ⟨m, rfl, h0⟩
  | cons w ws ih =>
    obtain ⟨hw, hws⟩ := List.forall_mem_cons.1 hv
    obtain ⟨m1, h1, h2⟩ := Matrix3x3.getMut_ok m b hw.1 hw.2 w.upd
    have hrun : Matrix3x3Write.run b m w = .ok m1 := by cases w <;> exact h1
    have h3 : ∀ r c, r < 3 → c < 3 → m1.get b r c = .ok (w.spec store r c) := by
      intro r c hr hc
      rw [Matrix3x3.get_ok m1 b hr hc, h2]
      have h4 := h0 r c hr hc
      rw [Matrix3x3.get_ok m b hr hc] at h4
      have h5 := Except.ok.inj h4
      rw [h5]
      unfold Matrix3x3Write.spec
      have hr' : r.toNat < 3 := hr
      have hc' : c.toNat < 3 := hc
      have hw1 : w.pos.1.toNat < 3 := hw.1
      have hw2 : w.pos.2.toNat < 3 := hw.2
      congr 1
      by_cases he : (r, c) = w.pos
      · rw [if_pos he, if_pos]; rw [← he]
      · rw [if_neg he, if_neg]
        intro h
        apply he
        have e1 : w.pos.1 = r := UInt32.toNat_inj.1 (by omega)
        have e2 : w.pos.2 = c := UInt32.toNat_inj.1 (by omega)
        rw [← e1, ← e2]
    obtain ⟨m', h6, h7⟩ := ih m1 (w.spec store) h3 hws
    refine ⟨m', ?_, h7⟩
    rw [List.foldlM_cons, hrun]
    exact h6

/-- **C38**: `new` stores its array in row-major order. -/
theorem C38_matrix3x3_new (b : Build) (a0 a1 a2 a3 a4 a5 a6 a7 a8 : S) (r c : Fin 3) :
    (Matrix3x3.new #v[a0, a1, a2, a3, a4, a5, a6, a7, a8]).get b (UInt32.ofNat r) (UInt32.ofNat c)
      = .ok ((![![a0, a1, a2], ![a3, a4, a5], ![a6, a7, a8]] : Fin 3 → Fin 3 → S) r c) := by
  cases b <;> fin_cases r <;> fin_cases c <;> rfl

/-- A concrete history meeting the hypotheses: write, overwrite through `get_mut`, write elsewhere. -/
example (s t : S) (f : S → S) :
    (∀ w ∈ [Matrix3x3Write.set 1 2 s, .getMut 1 2 f, .set 0 0 t], w.Valid) ∧
    [Matrix3x3Write.set 1 2 s, .getMut 1 2 f, .set 0 0 t].foldl Matrix3x3Write.spec (fun _ _ => t) 1 2 = f s := by
  constructor
  · intro w hw; fin_cases hw <;> simp [Matrix3x3Write.Valid, Matrix3x3Write.pos]
  · rfl

/-- **C39**, debug builds: an out-of-range row or column panics, for reads and writes alike (a write
that panics produces no new matrix). -/
theorem C39_matrix3x3_debug (m : Matrix3x3 S) (r c : UInt32) (h : ¬ (r < 3 ∧ c < 3)) (s : S)
    (f : S → S) :
    m.get .debug r c = .error .debugAssert ∧ m.set .debug r c s = .error .debugAssert ∧
    m.getMut .debug r c f = .error .debugAssert := by
  have : Matrix3x3.linearIndex .debug r c = .error .debugAssert := by
    unfold Matrix3x3.linearIndex
    by_cases hr : r < 3
    · have hc : ¬ c < 3 := fun hc => h ⟨hr, hc⟩
      simp [hr, hc]
    · simp [hr]
  simp [Matrix3x3.get, Matrix3x3.set, Matrix3x3.getMut, this, bind, Except.bind]

/-- **C39**, release builds: the access is to element `(row * 3 + col) mod 2^32` of the row-major
array when that is below 9, and panics otherwise; writes change that element only. -/
theorem C39_matrix3x3_release (m : Matrix3x3 S) (r c : UInt32) (s : S) :
    (∀ h : (r.toNat * 3 + c.toNat) % 2 ^ 32 < 9,
      m.get .release r c = .ok m.m[(r.toNat * 3 + c.toNat) % 2 ^ 32] ∧
      ∃ m', m.set .release r c s = .ok m' ∧ ∀ (i : ℕ) (hi : i < 9),
        m'.m[i] = if i = (r.toNat * 3 + c.toNat) % 2 ^ 32 then s else m.m[i]) ∧
    (¬ (r.toNat * 3 + c.toNat) % 2 ^ 32 < 9 →
      m.get .release r c = .error .indexOutOfBounds ∧
      m.set .release r c s = .error .indexOutOfBounds) := by
  have hk : (r * 3 + c).toNat = (r.toNat * 3 + c.toNat) % 2 ^ 32 := by
    simp [UInt32.toNat_add, UInt32.toNat_mul]
  have hl : Matrix3x3.linearIndex .release r c = .ok ((r.toNat * 3 + c.toNat) % 2 ^ 32) := by
    simp only [Matrix3x3.linearIndex, reduceCtorEq, false_and, if_false, hk]
  constructor
  · intro h
    constructor
    · simp only [Matrix3x3.get, hl, bind, Except.bind]; rw [dif_pos h]
    · refine ⟨⟨m.m.set _ s h⟩, ?_, ?_⟩
      · simp only [Matrix3x3.set, hl, bind, Except.bind]; rw [dif_pos h]
      · intro i hi
        rw [Vector.getElem_set]
        by_cases e : i = (r.toNat * 3 + c.toNat) % 2 ^ 32
        · rw [if_pos e, if_pos e.symm]
        · rw [if_neg e, if_neg (fun h => e h.symm)]
  · intro h
    simp only [Matrix3x3.get, Matrix3x3.set, hl, bind, Except.bind]
    rw [dif_neg h, dif_neg h]; exact ⟨rfl, rfl⟩

/-- **C39**: so in a release build `get(0, 3)` silently reads element (1, 0). -/
theorem C39_matrix3x3_alias (m : Matrix3x3 S) :
    m.get .release 0 3 = m.get .release 1 0 ∧
    (∃ s, m.get .release 0 3 = .ok s) ∧ m.get .debug 0 3 = .error .debugAssert :=
  ⟨rfl, ⟨_, rfl⟩, rfl⟩

/-- **C42**: scalar multiplication and division act on every element. -/
theorem C42_matrix3x3 (m : Matrix3x3 S) (s : S) (b : Build) (r c : UInt32) (hr : r < 3) (hc : c < 3) :
    ∃ x, m.get b r c = .ok x ∧ (m * s).get b r c = .ok (x * s) ∧ (s * m).get b r c = .ok (x * s) ∧
      (m / s).get b r c = .ok (x / s) := by
  refine ⟨_, Matrix3x3.get_ok m b hr hc, ?_, ?_, ?_⟩
  · rw [Matrix3x3.get_ok _ b hr hc, Matrix3x3.mul_m]
  · show (m * s).get b r c = _
    rw [Matrix3x3.get_ok _ b hr hc, Matrix3x3.mul_m]
  · rw [Matrix3x3.get_ok _ b hr hc, Matrix3x3.div_m]

theorem Matrix3x3.transpose_m (m : Matrix3x3 S) (i j : Fin 3) :
    m.transpose.m[3 * i.val + j.val] = m.m[3 * j.val + i.val] := by
  fin_cases i <;> fin_cases j <;> rfl

/-- **C40**: `transpose().get(r, c)` is `get(c, r)`. -/
theorem C40_matrix3x3_get (m : Matrix3x3 S) (b : Build) (r c : UInt32) (hr : r < 3) (hc : c < 3) :
    m.transpose.get b r c = m.get b c r := by
  have hr' : r.toNat < 3 := hr
  have hc' : c.toNat < 3 := hc
  rw [Matrix3x3.get_ok _ b hr hc, Matrix3x3.get_ok _ b hc hr]
  have := Matrix3x3.transpose_m m ⟨r.toNat, hr'⟩ ⟨c.toNat, hc'⟩
  simp only [Nat.mul_comm 3] at this
  rw [this]

/-- **C40**: transpose is an involution and commutes with scalar operations, in every arithmetic. -/
theorem C40_matrix3x3_involution (m : Matrix3x3 S) (s : S) :
    m.transpose.transpose = m ∧ (m * s).transpose = m.transpose * s ∧
    (m / s).transpose = m.transpose / s := by
  have key : ∀ (a b : Matrix3x3 S), (∀ i j : Fin 3, a.m[3 * i.val + j.val] = b.m[3 * i.val + j.val]) →
      a = b := by
    intro a b h
    ext k hk
    have := h ⟨k / 3, by omega⟩ ⟨k % 3, by omega⟩
    have e : 3 * (k / 3) + k % 3 = k := by omega
    simpa only [e] using this
  refine ⟨key _ _ fun i j => ?_, key _ _ fun i j => ?_, key _ _ fun i j => ?_⟩
  · rw [Matrix3x3.transpose_m, Matrix3x3.transpose_m]
  · rw [Matrix3x3.transpose_m, Matrix3x3.mul_m, Matrix3x3.mul_m, Matrix3x3.transpose_m]
  · rw [Matrix3x3.transpose_m, Matrix3x3.div_m, Matrix3x3.div_m, Matrix3x3.transpose_m]

/-! ## Matrix4x4 -/

namespace Matrix4x4

theorem linearIndex_ok (b : Build) {r c : UInt32} (hr : r < 4) (hc : c < 4) :
    linearIndex b r c = .ok (r.toNat * 4 + c.toNat) := by
  have hr' : r.toNat < 4 := hr
  have hc' : c.toNat < 4 := hc
  unfold linearIndex
  simp only [hr, hc, not_true_eq_false, and_false, if_false]
  congr 1
  simp [UInt32.toNat_add, UInt32.toNat_mul]
  omega

/-- Reading at a valid position, in either build profile, gives the row-major array element. -/
theorem get_ok (m : Matrix4x4 S) (b : Build) {r c : UInt32} (hr : r < 4) (hc : c < 4) :
    m.get b r c = .ok (m.m[r.toNat * 4 + c.toNat]'(by
      have hr' : r.toNat < 4 := hr
      have hc' : c.toNat < 4 := hc
      omega)) := by
  have hr' : r.toNat < 4 := hr
  have hc' : c.toNat < 4 := hc
  unfold get
  rw [linearIndex_ok b hr hc]
  simp only [bind, Except.bind]
  rw [dif_pos (by omega)]

theorem getMut_ok (m : Matrix4x4 S) (b : Build) {r c : UInt32} (hr : r < 4) (hc : c < 4)
    (f : S → S) : ∃ m', m.getMut b r c f = .ok m' ∧
      ∀ (i : ℕ) (hi : i < 16), m'.m[i] =
        if r.toNat * 4 + c.toNat = i then f m.m[i] else m.m[i] := by
  have hr' : r.toNat < 4 := hr
  have hc' : c.toNat < 4 := hc
  refine ⟨⟨m.m.set (r.toNat * 4 + c.toNat) (f (m.m[r.toNat * 4 + c.toNat]'(by omega)))
    (by omega)⟩, ?_, ?_⟩
  · unfold getMut
    rw [linearIndex_ok b hr hc]
    simp only [bind, Except.bind]
    rw [dif_pos (by omega)]
  · intro i hi
    rw [Vector.getElem_set]
    split_ifs with h
    · subst h; rfl
    · rfl

theorem set_eq_getMut (m : Matrix4x4 S) (b : Build) (r c : UInt32) (s : S) :
    m.set b r c s = m.getMut b r c (fun _ => s) := rfl

end Matrix4x4

/-- One write to a matrix: `m.set(row, col, v)`, or `*m.get_mut(row, col) = f(*m.get_mut(row, col))`. -/
inductive Matrix4x4Write (S : Type)
  | set (row col : UInt32) (value : S)
  | getMut (row col : UInt32) (f : S → S)

namespace Matrix4x4Write
/-- The position written. -/
def pos : Matrix4x4Write S → UInt32 × UInt32
  | .set r c _ => (r, c)
  | .getMut r c _ => (r, c)
/-- The new value at the position, given the old one. -/
def upd : Matrix4x4Write S → S → S
  | .set _ _ v => fun _ => v
  | .getMut _ _ f => f
/-- Row and column are in range. -/
def Valid (w : Matrix4x4Write S) : Prop := w.pos.1 < 4 ∧ w.pos.2 < 4
/-- Performing the write with the crate's API. -/
def run (b : Build) (m : Matrix4x4 S) : Matrix4x4Write S → Except Panic (Matrix4x4 S)
  | .set r c v => m.set b r c v
  | .getMut r c f => m.getMut b r c f
end Matrix4x4Write

/-- Specification: a matrix is a map from positions to elements, and a write changes one of them. -/
def Matrix4x4Write.spec (store : UInt32 → UInt32 → S) (w : Matrix4x4Write S) : UInt32 → UInt32 → S :=
  fun r c => if (r, c) = w.pos then w.upd (store r c) else store r c

/-- **C38**: starting from a matrix whose elements are those of `store`, any history of writes at valid
positions succeeds in both build profiles, and afterwards `get` at any valid position returns what the
map holds after the same history. -/
theorem C38_matrix4x4_history (b : Build) (m : Matrix4x4 S) (store : UInt32 → UInt32 → S)
    (h0 : ∀ r c, r < 4 → c < 4 → m.get b r c = .ok (store r c))
    (history : List (Matrix4x4Write S)) (hv : ∀ w ∈ history, w.Valid) :
    ∃ m', history.foldlM (Matrix4x4Write.run b) m = .ok m' ∧
      ∀ r c, r < 4 → c < 4 →
        m'.get b r c = .ok (history.foldl Matrix4x4Write.spec store r c) := by
  induction history generalizing m store with
  | nil => exact ⟨m, rfl, h0⟩
  | cons w ws ih =>
    obtain ⟨hw, hws⟩ := List.forall_mem_cons.1 hv
    obtain ⟨m1, h1, h2⟩ := Matrix4x4.getMut_ok m b hw.1 hw.2 w.upd
    have hrun : Matrix4x4Write.run b m w = .ok m1 := by cases w <;> exact h1
    have h3 : ∀ r c, r < 4 → c < 4 → m1.get b r c = .ok (w.spec store r c) := by
      intro r c hr hc
      rw [Matrix4x4.get_ok m1 b hr hc, h2]
      have h4 := h0 r c hr hc
      rw [Matrix4x4.get_ok m b hr hc] at h4
      have h5 := Except.ok.inj h4
      rw [h5]
      unfold Matrix4x4Write.spec
      have hr' : r.toNat < 4 := hr
      have hc' : c.toNat < 4 := hc
      have hw1 : w.pos.1.toNat < 4 := hw.1
      have hw2 : w.pos.2.toNat < 4 := hw.2
      congr 1
      by_cases he : (r, c) = w.pos
      · rw [if_pos he, if_pos]; rw [← he]
      · rw [if_neg he, if_neg]
        intro h
        apply he
        have e1 : w.pos.1 = r := UInt32.toNat_inj.1 (by omega)
        have e2 : w.pos.2 = c := UInt32.toNat_inj.1 (by omega)
        rw [← e1, ← e2]
    obtain ⟨m', h6, h7⟩ := ih m1 (w.spec store) h3 hws
    refine ⟨m', ?_, h7⟩
    rw [List.foldlM_cons, hrun]
    exact h6

/-- **C38**: `new` stores its array in row-major order. -/
theorem C38_matrix4x4_new (b : Build) (a0 a1 a2 a3 a4 a5 a6 a7 a8 a9 a10 a11 a12 a13 a14 a15 : S) (r c : Fin 4) :
    (Matrix4x4.new #v[a0, a1, a2, a3, a4, a5, a6, a7, a8, a9, a10, a11, a12, a13, a14, a15]).get b (UInt32.ofNat r) (UInt32.ofNat c)
      = .ok ((![![a0, a1, a2, a3], ![a4, a5, a6, a7], ![a8, a9, a10, a11], ![a12, a13, a14, a15]] : Fin 4 → Fin 4 → S) r c) := by
  cases b <;> fin_cases r <;> fin_cases c <;> rfl

/-- A concrete history meeting the hypotheses: write, overwrite through `get_mut`, write elsewhere. -/
example (s t : S) (f : S → S) :
    (∀ w ∈ [Matrix4x4Write.set 1 2 s, .getMut 1 2 f, .set 0 0 t], w.Valid) ∧
    [Matrix4x4Write.set 1 2 s, .getMut 1 2 f, .set 0 0 t].foldl Matrix4x4Write.spec (fun _ _ => t) 1 2 = f s := by
  constructor
  · intro w hw; fin_cases hw <;> simp [Matrix4x4Write.Valid, Matrix4x4Write.pos]
  · rfl

/-- **C39**, debug builds: an out-of-range row or column panics, for reads and writes alike (a write
that panics produces no new matrix). -/
theorem C39_matrix4x4_debug (m : Matrix4x4 S) (r c : UInt32) (h : ¬ (r < 4 ∧ c < 4)) (s : S)
    (f : S → S) :
    m.get .debug r c = .error .debugAssert ∧ m.set .debug r c s = .error .debugAssert ∧
    m.getMut .debug r c f = .error .debugAssert := by
  have : Matrix4x4.linearIndex .debug r c = .error .debugAssert := by
    unfold Matrix4x4.linearIndex
    by_cases hr : r < 4
    · have hc : ¬ c < 4 := fun hc => h ⟨hr, hc⟩
      simp [hr, hc]
    · simp [hr]
  simp [Matrix4x4.get, Matrix4x4.set, Matrix4x4.getMut, this, bind, Except.bind]

/-- **C39**, release builds: the access is to element `(row * 4 + col) mod 2^32` of the row-major
array when that is below 16, and panics otherwise; writes change that element only. -/
theorem C39_matrix4x4_release (m : Matrix4x4 S) (r c : UInt32) (s : S) :
    (∀ h : (r.toNat * 4 + c.toNat) % 2 ^ 32 < 16,
      m.get .release r c = .ok m.m[(r.toNat * 4 + c.toNat) % 2 ^ 32] ∧
      ∃ m', m.set .release r c s = .ok m' ∧ ∀ (i : ℕ) (hi : i < 16),
        m'.m[i] = if i = (r.toNat * 4 + c.toNat) % 2 ^ 32 then s else m.m[i]) ∧
    (¬ (r.toNat * 4 + c.toNat) % 2 ^ 32 < 16 →
      m.get .release r c = .error .indexOutOfBounds ∧
      m.set .release r c s = .error .indexOutOfBounds) := by
  have hk : (r * 4 + c).toNat = (r.toNat * 4 + c.toNat) % 2 ^ 32 := by
    simp [UInt32.toNat_add, UInt32.toNat_mul]
  have hl : Matrix4x4.linearIndex .release r c = .ok ((r.toNat * 4 + c.toNat) % 2 ^ 32) := by
    simp only [Matrix4x4.linearIndex, reduceCtorEq, false_and, if_false, hk]
  constructor
  · intro h
    constructor
    · simp only [Matrix4x4.get, hl, bind, Except.bind]; rw [dif_pos h]
    · refine ⟨⟨m.m.set _ s h⟩, ?_, ?_⟩
      · simp only [Matrix4x4.set, hl, bind, Except.bind]; rw [dif_pos h]
      · intro i hi
        rw [Vector.getElem_set]
        by_cases e : i = (r.toNat * 4 + c.toNat) % 2 ^ 32
        · rw [if_pos e, if_pos e.symm]
        · rw [if_neg e, if_neg (fun h => e h.symm)]
  · intro h
    simp only [Matrix4x4.get, Matrix4x4.set, hl, bind, Except.bind]
    rw [dif_neg h, dif_neg h]; exact ⟨rfl, rfl⟩

/-- **C39**: so in a release build `get(0, 4)` silently reads element (1, 0). -/
theorem C39_matrix4x4_alias (m : Matrix4x4 S) :
    m.get .release 0 4 = m.get .release 1 0 ∧
    (∃ s, m.get .release 0 4 = .ok s) ∧ m.get .debug 0 4 = .error .debugAssert :=
  ⟨rfl, ⟨_, rfl⟩, rfl⟩

/-- **C42**: scalar multiplication and division act on every element. -/
theorem C42_matrix4x4 (m : Matrix4x4 S) (s : S) (b : Build) (r c : UInt32) (hr : r < 4) (hc : c < 4) :
    ∃ x, m.get b r c = .ok x ∧ (m * s).get b r c = .ok (x * s) ∧ (s * m).get b r c = .ok (x * s) ∧
      (m / s).get b r c = .ok (x / s) := by
  refine ⟨_, Matrix4x4.get_ok m b hr hc, ?_, ?_, ?_⟩
  · rw [Matrix4x4.get_ok _ b hr hc, Matrix4x4.mul_m]
  · show (m * s).get b r c = _
    rw [Matrix4x4.get_ok _ b hr hc, Matrix4x4.mul_m]
  · rw [Matrix4x4.get_ok _ b hr hc, Matrix4x4.div_m]

theorem Matrix4x4.transpose_m (m : Matrix4x4 S) (i j : Fin 4) :
    m.transpose.m[4 * i.val + j.val] = m.m[4 * j.val + i.val] := by
  fin_cases i <;> fin_cases j <;> rfl

/-- **C40**: `transpose().get(r, c)` is `get(c, r)`. -/
theorem C40_matrix4x4_get (m : Matrix4x4 S) (b : Build) (r c : UInt32) (hr : r < 4) (hc : c < 4) :
    m.transpose.get b r c = m.get b c r := by
  have hr' : r.toNat < 4 := hr
  have hc' : c.toNat < 4 := hc
  rw [Matrix4x4.get_ok _ b hr hc, Matrix4x4.get_ok _ b hc hr]
  have := Matrix4x4.transpose_m m ⟨r.toNat, hr'⟩ ⟨c.toNat, hc'⟩
  simp only [Nat.mul_comm 4] at this
  rw [this]

/-- **C40**: transpose is an involution and commutes with scalar operations, in every arithmetic. -/
theorem C40_matrix4x4_involution (m : Matrix4x4 S) (s : S) :
    m.transpose.transpose = m ∧ (m * s).transpose = m.transpose * s ∧
    (m / s).transpose = m.transpose / s := by
  have key : ∀ (a b : Matrix4x4 S), (∀ i j : Fin 4, a.m[4 * i.val + j.val] = b.m[4 * i.val + j.val]) →
      a = b := by
    intro a b h
    ext k hk
    have := h ⟨k / 4, by omega⟩ ⟨k % 4, by omega⟩
    have e : 4 * (k / 4) + k % 4 = k := by omega
    simpa only [e] using this
  refine ⟨key _ _ fun i j => ?_, key _ _ fun i j => ?_, key _ _ fun i j => ?_⟩
  · rw [Matrix4x4.transpose_m, Matrix4x4.transpose_m]
  · rw [Matrix4x4.transpose_m, Matrix4x4.mul_m, Matrix4x4.mul_m, Matrix4x4.transpose_m]
  · rw [Matrix4x4.transpose_m, Matrix4x4.div_m, Matrix4x4.div_m, Matrix4x4.transpose_m]

/-- The closure `sub` of `Matrix4x4::inverse` reads elements with `get` at in-range positions, where
`get` cannot panic in either profile: the model's `elem` is that value. -/
theorem Matrix4x4.get_eq_elem (m : Matrix4x4 S) (b : Build) (i j : Fin 4) :
    m.get b (UInt32.ofNat i) (UInt32.ofNat j) = .ok (m.elem i j) := by
  cases b <;> fin_cases i <;> fin_cases j <;> rfl

end VecMath

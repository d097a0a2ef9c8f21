import Verif.Rust.Rep
import Verif.Rust.Tactic
/-! # Vocabulary and lemmas for the functions that index -/

namespace VecMath.Rust
open VecMath
variable {S : Type}

/-- An update of a scalar, as an update of values. -/
def scalarUpdate (f : S → S) : Val S → Option (Val S)
  | .sc s => some (.sc (f s))
  | _ => none

theorem and_eq_zero (i k : UInt32) : (i &&& k == 0) = ((i.toNat &&& k.toNat) == 0) := by
  rw [Bool.eq_iff_iff]
  simp only [beq_iff_eq, ← UInt32.toNat_inj, UInt32.toNat_and, UInt32.toNat_zero]

/-- What `linear_index` does with its arguments, in numbers: the two assertions in debug builds, then
`row * k + col` in `u32` arithmetic. -/
def linearOut (b : Build) (k r c : Nat) (f : Nat → Out S) : Out S :=
  match b with
  | .debug => bif r.blt k then (bif c.blt k then
      (bif (r * k).blt (2 ^ 32) then (bif (r * k + c).blt (2 ^ 32) then f (r * k + c) else .overflow) else .overflow)
    else .panic .debugAssert) else .panic .debugAssert
  | .release => bif (r * k).blt (2 ^ 32)
    then (bif (r * k + c).blt (2 ^ 32) then f (r * k + c) else f ((r * k + c) % 2 ^ 32))
    else (bif ((r * k) % 2 ^ 32 + c).blt (2 ^ 32) then f ((r * k) % 2 ^ 32 + c)
      else f (((r * k) % 2 ^ 32 + c) % 2 ^ 32))

theorem linearOut_eq (b : Build) (k row col : UInt32) (hk : k.toNat ≤ 2 ^ 15) (f : Nat → Out S) :
    linearOut b k.toNat row.toNat col.toNat f =
      if b = .debug ∧ ¬ row < k then .panic .debugAssert
      else if b = .debug ∧ ¬ col < k then .panic .debugAssert
      else f (row * k + col).toNat := by
  have e : (row * k + col).toNat = (row.toNat * k.toNat + col.toNat) % 2 ^ 32 := by
    rw [UInt32.toNat_add, UInt32.toNat_mul]; omega
  have blt : ∀ m n : Nat, m.blt n = decide (m < n) := fun m n => by
    rw [Bool.eq_iff_iff]; simp [Nat.blt]; omega
  have wr : ∀ n, (bif n.blt (2 ^ 32) then f n else f (n % 2 ^ 32)) = f (n % 2 ^ 32) := fun n => by
    rw [blt]; by_cases h : n < 2 ^ 32
    · simp [h, Nat.mod_eq_of_lt h]
    · simp [h]
  cases b with
  | debug =>
    simp only [linearOut, blt, UInt32.lt_iff_toNat_lt, true_and]
    by_cases h1 : row.toNat < k.toNat <;> by_cases h2 : col.toNat < k.toNat
    · have h3 : row.toNat * k.toNat + col.toNat < 2 ^ 32 := by
        have : row.toNat * k.toNat ≤ 2 ^ 15 * 2 ^ 15 := Nat.mul_le_mul (by omega) hk
        omega
      have h4 : row.toNat * k.toNat < 2 ^ 32 := by omega
      rw [e, Nat.mod_eq_of_lt h3]
      simp only [h1, h2, h3, h4, decide_true, cond_true, not_true_eq_false, ↓reduceIte]
    all_goals simp [h1, h2]
  | release =>
    simp only [linearOut, wr, reduceCtorEq, false_and, ↓reduceIte, e]
    rw [blt]
    by_cases h : row.toNat * k.toNat < 2 ^ 32
    · simp [h]
    · simp [h]

/-- The elements of an array are its entries. -/
theorem elems_get {n : Nat} (v : Vector S n) (l : List (Val S)) (h : l = v.toList.map .sc) (i : Nat) :
    l[i]? = if h : i < n then some (.sc v[i]) else none := by
  subst h
  by_cases hi : i < n
  · simp [hi]
  · simp [hi]

theorem rep9 (v : Vector S 9) : (rep v : Val S) = .arr (v.toList.map .sc) := by
  obtain ⟨⟨l⟩, h⟩ := v
  match l, h with
  | [a0, a1, a2, a3, a4, a5, a6, a7, a8], _ => rfl

theorem rep16 (v : Vector S 16) : (rep v : Val S) = .arr (v.toList.map .sc) := by
  obtain ⟨⟨l⟩, h⟩ := v
  match l, h with
  | [a0, a1, a2, a3, a4, a5, a6, a7, a8, a9, a10, a11, a12, a13, a14, a15], _ => rfl

/-- The list in an array value. -/
def Val.list : Val S → List (Val S)
  | .arr l => l
  | _ => []

theorem list9 (v : Vector S 9) : (rep v : Val S).list = v.toList.map .sc := by rw [rep9]; rfl
theorem list16 (v : Vector S 16) : (rep v : Val S).list = v.toList.map .sc := by rw [rep16]; rfl

theorem set_list {n : Nat} (v : Vector S n) (i : Nat) (s : S) (h : i < n) :
    (v.toList.map Val.sc).set i (.sc s) = (v.set i s).toList.map Val.sc := by
  obtain ⟨⟨l⟩, hl⟩ := v
  simp [Vector.set, Vector.toList, List.map_set]

variable [Scalar S]

theorem read_elem {n : Nat} (ty : Ident) (v : Vector S n) (i : Nat) :
    (Val.obj ty [(i!"m", .arr (v.toList.map .sc))] : Val S).read [.field (i!"m"), .elem i] =
      if h : i < n then some (.sc v[i]) else none := by
  have g := elems_get v _ rfl i
  by_cases hi : i < n
  · rw [dif_pos hi] at g ⊢
    simp only [Val.read, lookup, beq_self_eq_true, g]
  · rw [dif_neg hi] at g ⊢
    simp only [Val.read, lookup, beq_self_eq_true, g]

theorem modify_elem {n : Nat} (ty : Ident) (v : Vector S n) (i : Nat) (f : S → S)
    (F : Val S → Option (Val S)) (hF : ∀ s, F (.sc s) = some (.sc (f s))) :
    (Val.obj ty [(i!"m", .arr (v.toList.map .sc))] : Val S).modify F [.field (i!"m"), .elem i] =
      if h : i < n then some (.obj ty [(i!"m", .arr ((v.set i (f v[i])).toList.map .sc))]) else none := by
  have g := elems_get v _ rfl i
  by_cases hi : i < n
  · rw [dif_pos hi] at g ⊢
    rw [← set_list v i _ hi]
    simp only [Val.modify, lookup, update, beq_self_eq_true, g, hF]
  · rw [dif_neg hi] at g ⊢
    simp only [Val.modify, lookup, beq_self_eq_true, g]

end VecMath.Rust

import Verif.Rust.Typing
/-! # The values of the crate's types are those of the model

Generated by `tools/gen/typing.py`. -/

namespace VecMath.Rust
open VecMath
variable {S : Type}

theorem is_Vector2 (p : Prim) (l : List Ty) (n : Nat) (v : Val S)
    (h : Val.Is Src.crate p.id (n + 5) (.path (i!"Vector2") l) v) : ∃ a : Vector2 S, v = rep a := by
  have e : Val.Is Src.crate p.id (n + 5) (.path (i!"Vector2") l) v = (∃ fs, v = .obj (i!"Vector2") fs ∧ (∃ w0 r0, fs = ((i!"x"), w0) :: r0 ∧ (∃ s : S, w0 = .sc s) ∧ (∃ w1 r1, r0 = ((i!"y"), w1) :: r1 ∧ (∃ s : S, w1 = .sc s) ∧ r1 = []))) := by cases p <;> kernel_rfl
  rw [e] at h
  obtain ⟨_, rfl, ⟨_, _, rfl, ⟨s0, rfl⟩, ⟨_, _, rfl, ⟨s1, rfl⟩, rfl⟩⟩⟩ := h
  exact ⟨⟨s0, s1⟩, rfl⟩

theorem has_Vector2 (p : Prim) (l : List Ty) (n : Nat) (a : Vector2 S) : Val.Is Src.crate p.id (n + 5) (.path (i!"Vector2") l) (rep a : Val S) := by
  have e : ∀ v : Val S, Val.Is Src.crate p.id (n + 5) (.path (i!"Vector2") l) v = (∃ fs, v = .obj (i!"Vector2") fs ∧ (∃ w0 r0, fs = ((i!"x"), w0) :: r0 ∧ (∃ s : S, w0 = .sc s) ∧ (∃ w1 r1, r0 = ((i!"y"), w1) :: r1 ∧ (∃ s : S, w1 = .sc s) ∧ r1 = []))) := by intro v; cases p <;> kernel_rfl
  rw [e]
  exact ⟨_, rfl, ⟨_, _, rfl, ⟨_, rfl⟩, ⟨_, _, rfl, ⟨_, rfl⟩, rfl⟩⟩⟩

theorem is_Point2 (p : Prim) (l : List Ty) (n : Nat) (v : Val S)
    (h : Val.Is Src.crate p.id (n + 5) (.path (i!"Point2") l) v) : ∃ a : Point2 S, v = rep a := by
  have e : Val.Is Src.crate p.id (n + 5) (.path (i!"Point2") l) v = (∃ fs, v = .obj (i!"Point2") fs ∧ (∃ w0 r0, fs = ((i!"x"), w0) :: r0 ∧ (∃ s : S, w0 = .sc s) ∧ (∃ w1 r1, r0 = ((i!"y"), w1) :: r1 ∧ (∃ s : S, w1 = .sc s) ∧ r1 = []))) := by cases p <;> kernel_rfl
  rw [e] at h
  obtain ⟨_, rfl, ⟨_, _, rfl, ⟨s0, rfl⟩, ⟨_, _, rfl, ⟨s1, rfl⟩, rfl⟩⟩⟩ := h
  exact ⟨⟨s0, s1⟩, rfl⟩

theorem has_Point2 (p : Prim) (l : List Ty) (n : Nat) (a : Point2 S) : Val.Is Src.crate p.id (n + 5) (.path (i!"Point2") l) (rep a : Val S) := by
  have e : ∀ v : Val S, Val.Is Src.crate p.id (n + 5) (.path (i!"Point2") l) v = (∃ fs, v = .obj (i!"Point2") fs ∧ (∃ w0 r0, fs = ((i!"x"), w0) :: r0 ∧ (∃ s : S, w0 = .sc s) ∧ (∃ w1 r1, r0 = ((i!"y"), w1) :: r1 ∧ (∃ s : S, w1 = .sc s) ∧ r1 = []))) := by intro v; cases p <;> kernel_rfl
  rw [e]
  exact ⟨_, rfl, ⟨_, _, rfl, ⟨_, rfl⟩, ⟨_, _, rfl, ⟨_, rfl⟩, rfl⟩⟩⟩

theorem is_Vector3 (p : Prim) (l : List Ty) (n : Nat) (v : Val S)
    (h : Val.Is Src.crate p.id (n + 5) (.path (i!"Vector3") l) v) : ∃ a : Vector3 S, v = rep a := by
  have e : Val.Is Src.crate p.id (n + 5) (.path (i!"Vector3") l) v = (∃ fs, v = .obj (i!"Vector3") fs ∧ (∃ w0 r0, fs = ((i!"x"), w0) :: r0 ∧ (∃ s : S, w0 = .sc s) ∧ (∃ w1 r1, r0 = ((i!"y"), w1) :: r1 ∧ (∃ s : S, w1 = .sc s) ∧ (∃ w2 r2, r1 = ((i!"z"), w2) :: r2 ∧ (∃ s : S, w2 = .sc s) ∧ r2 = [])))) := by cases p <;> kernel_rfl
  rw [e] at h
  obtain ⟨_, rfl, ⟨_, _, rfl, ⟨s0, rfl⟩, ⟨_, _, rfl, ⟨s1, rfl⟩, ⟨_, _, rfl, ⟨s2, rfl⟩, rfl⟩⟩⟩⟩ := h
  exact ⟨⟨s0, s1, s2⟩, rfl⟩

theorem has_Vector3 (p : Prim) (l : List Ty) (n : Nat) (a : Vector3 S) : Val.Is Src.crate p.id (n + 5) (.path (i!"Vector3") l) (rep a : Val S) := by
  have e : ∀ v : Val S, Val.Is Src.crate p.id (n + 5) (.path (i!"Vector3") l) v = (∃ fs, v = .obj (i!"Vector3") fs ∧ (∃ w0 r0, fs = ((i!"x"), w0) :: r0 ∧ (∃ s : S, w0 = .sc s) ∧ (∃ w1 r1, r0 = ((i!"y"), w1) :: r1 ∧ (∃ s : S, w1 = .sc s) ∧ (∃ w2 r2, r1 = ((i!"z"), w2) :: r2 ∧ (∃ s : S, w2 = .sc s) ∧ r2 = [])))) := by intro v; cases p <;> kernel_rfl
  rw [e]
  exact ⟨_, rfl, ⟨_, _, rfl, ⟨_, rfl⟩, ⟨_, _, rfl, ⟨_, rfl⟩, ⟨_, _, rfl, ⟨_, rfl⟩, rfl⟩⟩⟩⟩

theorem is_Point3 (p : Prim) (l : List Ty) (n : Nat) (v : Val S)
    (h : Val.Is Src.crate p.id (n + 5) (.path (i!"Point3") l) v) : ∃ a : Point3 S, v = rep a := by
  have e : Val.Is Src.crate p.id (n + 5) (.path (i!"Point3") l) v = (∃ fs, v = .obj (i!"Point3") fs ∧ (∃ w0 r0, fs = ((i!"x"), w0) :: r0 ∧ (∃ s : S, w0 = .sc s) ∧ (∃ w1 r1, r0 = ((i!"y"), w1) :: r1 ∧ (∃ s : S, w1 = .sc s) ∧ (∃ w2 r2, r1 = ((i!"z"), w2) :: r2 ∧ (∃ s : S, w2 = .sc s) ∧ r2 = [])))) := by cases p <;> kernel_rfl
  rw [e] at h
  obtain ⟨_, rfl, ⟨_, _, rfl, ⟨s0, rfl⟩, ⟨_, _, rfl, ⟨s1, rfl⟩, ⟨_, _, rfl, ⟨s2, rfl⟩, rfl⟩⟩⟩⟩ := h
  exact ⟨⟨s0, s1, s2⟩, rfl⟩

theorem has_Point3 (p : Prim) (l : List Ty) (n : Nat) (a : Point3 S) : Val.Is Src.crate p.id (n + 5) (.path (i!"Point3") l) (rep a : Val S) := by
  have e : ∀ v : Val S, Val.Is Src.crate p.id (n + 5) (.path (i!"Point3") l) v = (∃ fs, v = .obj (i!"Point3") fs ∧ (∃ w0 r0, fs = ((i!"x"), w0) :: r0 ∧ (∃ s : S, w0 = .sc s) ∧ (∃ w1 r1, r0 = ((i!"y"), w1) :: r1 ∧ (∃ s : S, w1 = .sc s) ∧ (∃ w2 r2, r1 = ((i!"z"), w2) :: r2 ∧ (∃ s : S, w2 = .sc s) ∧ r2 = [])))) := by intro v; cases p <;> kernel_rfl
  rw [e]
  exact ⟨_, rfl, ⟨_, _, rfl, ⟨_, rfl⟩, ⟨_, _, rfl, ⟨_, rfl⟩, ⟨_, _, rfl, ⟨_, rfl⟩, rfl⟩⟩⟩⟩

theorem is_Ray2 (p : Prim) (l : List Ty) (n : Nat) (v : Val S)
    (h : Val.Is Src.crate p.id (n + 6) (.path (i!"Ray2") l) v) : ∃ a : Ray2 S, v = rep a := by
  have e : Val.Is Src.crate p.id (n + 6) (.path (i!"Ray2") l) v =
      (∃ fs, v = .obj (i!"Ray2") fs ∧ (∃ w0 r0, fs = ((i!"origin"), w0) :: r0 ∧ Val.Is Src.crate p.id (n + 5) (.path (i!"Point2") [.path (i!"S") []]) w0 ∧
        (∃ w1 r1, r0 = ((i!"direction"), w1) :: r1 ∧ Val.Is Src.crate p.id (n + 5) (.path (i!"Vector2") [.path (i!"S") []]) w1 ∧ r1 = []))) := by
    cases p <;> kernel_rfl
  rw [e] at h
  obtain ⟨_, rfl, _, _, rfl, h0, _, _, rfl, h1, rfl⟩ := h
  obtain ⟨a, rfl⟩ := is_Point2 p _ n _ h0
  obtain ⟨b, rfl⟩ := is_Vector2 p _ n _ h1
  exact ⟨⟨a, b⟩, rfl⟩

theorem has_Ray2 (p : Prim) (l : List Ty) (n : Nat) (a : Ray2 S) :
    Val.Is Src.crate p.id (n + 6) (.path (i!"Ray2") l) (rep a : Val S) := by
  have e : ∀ v : Val S, Val.Is Src.crate p.id (n + 6) (.path (i!"Ray2") l) v =
      (∃ fs, v = .obj (i!"Ray2") fs ∧ (∃ w0 r0, fs = ((i!"origin"), w0) :: r0 ∧ Val.Is Src.crate p.id (n + 5) (.path (i!"Point2") [.path (i!"S") []]) w0 ∧
        (∃ w1 r1, r0 = ((i!"direction"), w1) :: r1 ∧ Val.Is Src.crate p.id (n + 5) (.path (i!"Vector2") [.path (i!"S") []]) w1 ∧ r1 = []))) := by
    intro v; cases p <;> kernel_rfl
  rw [e]
  exact ⟨_, rfl, _, _, rfl, has_Point2 p _ n _, _, _, rfl, has_Vector2 p _ n _, rfl⟩

theorem is_BoundingBox2 (p : Prim) (l : List Ty) (n : Nat) (v : Val S)
    (h : Val.Is Src.crate p.id (n + 6) (.path (i!"BoundingBox2") l) v) : ∃ a : BoundingBox2 S, v = rep a := by
  have e : Val.Is Src.crate p.id (n + 6) (.path (i!"BoundingBox2") l) v =
      (∃ fs, v = .obj (i!"BoundingBox2") fs ∧ (∃ w0 r0, fs = ((i!"min"), w0) :: r0 ∧ Val.Is Src.crate p.id (n + 5) (.path (i!"Point2") [.path (i!"S") []]) w0 ∧
        (∃ w1 r1, r0 = ((i!"max"), w1) :: r1 ∧ Val.Is Src.crate p.id (n + 5) (.path (i!"Point2") [.path (i!"S") []]) w1 ∧ r1 = []))) := by
    cases p <;> kernel_rfl
  rw [e] at h
  obtain ⟨_, rfl, _, _, rfl, h0, _, _, rfl, h1, rfl⟩ := h
  obtain ⟨a, rfl⟩ := is_Point2 p _ n _ h0
  obtain ⟨b, rfl⟩ := is_Point2 p _ n _ h1
  exact ⟨⟨a, b⟩, rfl⟩

theorem has_BoundingBox2 (p : Prim) (l : List Ty) (n : Nat) (a : BoundingBox2 S) :
    Val.Is Src.crate p.id (n + 6) (.path (i!"BoundingBox2") l) (rep a : Val S) := by
  have e : ∀ v : Val S, Val.Is Src.crate p.id (n + 6) (.path (i!"BoundingBox2") l) v =
      (∃ fs, v = .obj (i!"BoundingBox2") fs ∧ (∃ w0 r0, fs = ((i!"min"), w0) :: r0 ∧ Val.Is Src.crate p.id (n + 5) (.path (i!"Point2") [.path (i!"S") []]) w0 ∧
        (∃ w1 r1, r0 = ((i!"max"), w1) :: r1 ∧ Val.Is Src.crate p.id (n + 5) (.path (i!"Point2") [.path (i!"S") []]) w1 ∧ r1 = []))) := by
    intro v; cases p <;> kernel_rfl
  rw [e]
  exact ⟨_, rfl, _, _, rfl, has_Point2 p _ n _, _, _, rfl, has_Point2 p _ n _, rfl⟩

theorem is_Ray3 (p : Prim) (l : List Ty) (n : Nat) (v : Val S)
    (h : Val.Is Src.crate p.id (n + 6) (.path (i!"Ray3") l) v) : ∃ a : Ray3 S, v = rep a := by
  have e : Val.Is Src.crate p.id (n + 6) (.path (i!"Ray3") l) v =
      (∃ fs, v = .obj (i!"Ray3") fs ∧ (∃ w0 r0, fs = ((i!"origin"), w0) :: r0 ∧ Val.Is Src.crate p.id (n + 5) (.path (i!"Point3") [.path (i!"S") []]) w0 ∧
        (∃ w1 r1, r0 = ((i!"direction"), w1) :: r1 ∧ Val.Is Src.crate p.id (n + 5) (.path (i!"Vector3") [.path (i!"S") []]) w1 ∧ r1 = []))) := by
    cases p <;> kernel_rfl
  rw [e] at h
  obtain ⟨_, rfl, _, _, rfl, h0, _, _, rfl, h1, rfl⟩ := h
  obtain ⟨a, rfl⟩ := is_Point3 p _ n _ h0
  obtain ⟨b, rfl⟩ := is_Vector3 p _ n _ h1
  exact ⟨⟨a, b⟩, rfl⟩

theorem has_Ray3 (p : Prim) (l : List Ty) (n : Nat) (a : Ray3 S) :
    Val.Is Src.crate p.id (n + 6) (.path (i!"Ray3") l) (rep a : Val S) := by
  have e : ∀ v : Val S, Val.Is Src.crate p.id (n + 6) (.path (i!"Ray3") l) v =
      (∃ fs, v = .obj (i!"Ray3") fs ∧ (∃ w0 r0, fs = ((i!"origin"), w0) :: r0 ∧ Val.Is Src.crate p.id (n + 5) (.path (i!"Point3") [.path (i!"S") []]) w0 ∧
        (∃ w1 r1, r0 = ((i!"direction"), w1) :: r1 ∧ Val.Is Src.crate p.id (n + 5) (.path (i!"Vector3") [.path (i!"S") []]) w1 ∧ r1 = []))) := by
    intro v; cases p <;> kernel_rfl
  rw [e]
  exact ⟨_, rfl, _, _, rfl, has_Point3 p _ n _, _, _, rfl, has_Vector3 p _ n _, rfl⟩

theorem is_BoundingBox3 (p : Prim) (l : List Ty) (n : Nat) (v : Val S)
    (h : Val.Is Src.crate p.id (n + 6) (.path (i!"BoundingBox3") l) v) : ∃ a : BoundingBox3 S, v = rep a := by
  have e : Val.Is Src.crate p.id (n + 6) (.path (i!"BoundingBox3") l) v =
      (∃ fs, v = .obj (i!"BoundingBox3") fs ∧ (∃ w0 r0, fs = ((i!"min"), w0) :: r0 ∧ Val.Is Src.crate p.id (n + 5) (.path (i!"Point3") [.path (i!"S") []]) w0 ∧
        (∃ w1 r1, r0 = ((i!"max"), w1) :: r1 ∧ Val.Is Src.crate p.id (n + 5) (.path (i!"Point3") [.path (i!"S") []]) w1 ∧ r1 = []))) := by
    cases p <;> kernel_rfl
  rw [e] at h
  obtain ⟨_, rfl, _, _, rfl, h0, _, _, rfl, h1, rfl⟩ := h
  obtain ⟨a, rfl⟩ := is_Point3 p _ n _ h0
  obtain ⟨b, rfl⟩ := is_Point3 p _ n _ h1
  exact ⟨⟨a, b⟩, rfl⟩

theorem has_BoundingBox3 (p : Prim) (l : List Ty) (n : Nat) (a : BoundingBox3 S) :
    Val.Is Src.crate p.id (n + 6) (.path (i!"BoundingBox3") l) (rep a : Val S) := by
  have e : ∀ v : Val S, Val.Is Src.crate p.id (n + 6) (.path (i!"BoundingBox3") l) v =
      (∃ fs, v = .obj (i!"BoundingBox3") fs ∧ (∃ w0 r0, fs = ((i!"min"), w0) :: r0 ∧ Val.Is Src.crate p.id (n + 5) (.path (i!"Point3") [.path (i!"S") []]) w0 ∧
        (∃ w1 r1, r0 = ((i!"max"), w1) :: r1 ∧ Val.Is Src.crate p.id (n + 5) (.path (i!"Point3") [.path (i!"S") []]) w1 ∧ r1 = []))) := by
    intro v; cases p <;> kernel_rfl
  rw [e]
  exact ⟨_, rfl, _, _, rfl, has_Point3 p _ n _, _, _, rfl, has_Point3 p _ n _, rfl⟩

theorem is_arr9 (p : Prim) (n : Nat) (v : Val S)
    (h : Val.Is Src.crate p.id (n + 3) (.arr (.path (i!"S") []) 9) v) : ∃ a : Vector S 9, v = rep a := by
  have e : Val.Is Src.crate p.id (n + 3) (.arr (.path (i!"S") []) 9) v = (∃ l, v = .arr l ∧ (∃ w0 r0, l = w0 :: r0 ∧ (∃ s : S, w0 = .sc s) ∧ (∃ w1 r1, r0 = w1 :: r1 ∧ (∃ s : S, w1 = .sc s) ∧ (∃ w2 r2, r1 = w2 :: r2 ∧ (∃ s : S, w2 = .sc s) ∧ (∃ w3 r3, r2 = w3 :: r3 ∧ (∃ s : S, w3 = .sc s) ∧ (∃ w4 r4, r3 = w4 :: r4 ∧ (∃ s : S, w4 = .sc s) ∧ (∃ w5 r5, r4 = w5 :: r5 ∧ (∃ s : S, w5 = .sc s) ∧ (∃ w6 r6, r5 = w6 :: r6 ∧ (∃ s : S, w6 = .sc s) ∧ (∃ w7 r7, r6 = w7 :: r7 ∧ (∃ s : S, w7 = .sc s) ∧ (∃ w8 r8, r7 = w8 :: r8 ∧ (∃ s : S, w8 = .sc s) ∧ r8 = [])))))))))) := by cases p <;> kernel_rfl
  rw [e] at h
  obtain ⟨_, rfl, ⟨_, _, rfl, ⟨s0, rfl⟩, ⟨_, _, rfl, ⟨s1, rfl⟩, ⟨_, _, rfl, ⟨s2, rfl⟩, ⟨_, _, rfl, ⟨s3, rfl⟩, ⟨_, _, rfl, ⟨s4, rfl⟩, ⟨_, _, rfl, ⟨s5, rfl⟩, ⟨_, _, rfl, ⟨s6, rfl⟩, ⟨_, _, rfl, ⟨s7, rfl⟩, ⟨_, _, rfl, ⟨s8, rfl⟩, rfl⟩⟩⟩⟩⟩⟩⟩⟩⟩⟩ := h
  exact ⟨#v[s0, s1, s2, s3, s4, s5, s6, s7, s8], rfl⟩

theorem has_arr9 (p : Prim) (n : Nat) (a : Vector S 9) : Val.Is Src.crate p.id (n + 3) (.arr (.path (i!"S") []) 9) (rep a : Val S) := by
  have e : ∀ v : Val S, Val.Is Src.crate p.id (n + 3) (.arr (.path (i!"S") []) 9) v = (∃ l, v = .arr l ∧ (∃ w0 r0, l = w0 :: r0 ∧ (∃ s : S, w0 = .sc s) ∧ (∃ w1 r1, r0 = w1 :: r1 ∧ (∃ s : S, w1 = .sc s) ∧ (∃ w2 r2, r1 = w2 :: r2 ∧ (∃ s : S, w2 = .sc s) ∧ (∃ w3 r3, r2 = w3 :: r3 ∧ (∃ s : S, w3 = .sc s) ∧ (∃ w4 r4, r3 = w4 :: r4 ∧ (∃ s : S, w4 = .sc s) ∧ (∃ w5 r5, r4 = w5 :: r5 ∧ (∃ s : S, w5 = .sc s) ∧ (∃ w6 r6, r5 = w6 :: r6 ∧ (∃ s : S, w6 = .sc s) ∧ (∃ w7 r7, r6 = w7 :: r7 ∧ (∃ s : S, w7 = .sc s) ∧ (∃ w8 r8, r7 = w8 :: r8 ∧ (∃ s : S, w8 = .sc s) ∧ r8 = [])))))))))) := by intro v; cases p <;> kernel_rfl
  rw [e]
  exact ⟨_, rfl, ⟨_, _, rfl, ⟨_, rfl⟩, ⟨_, _, rfl, ⟨_, rfl⟩, ⟨_, _, rfl, ⟨_, rfl⟩, ⟨_, _, rfl, ⟨_, rfl⟩, ⟨_, _, rfl, ⟨_, rfl⟩, ⟨_, _, rfl, ⟨_, rfl⟩, ⟨_, _, rfl, ⟨_, rfl⟩, ⟨_, _, rfl, ⟨_, rfl⟩, ⟨_, _, rfl, ⟨_, rfl⟩, rfl⟩⟩⟩⟩⟩⟩⟩⟩⟩⟩

theorem is_Matrix3x3 (p : Prim) (l : List Ty) (n : Nat) (v : Val S)
    (h : Val.Is Src.crate p.id (n + 5) (.path (i!"Matrix3x3") l) v) : ∃ a : Matrix3x3 S, v = rep a := by
  have e : Val.Is Src.crate p.id (n + 5) (.path (i!"Matrix3x3") l) v = (∃ fs, v = .obj (i!"Matrix3x3") fs ∧
      ∃ w r, fs = ((i!"m"), w) :: r ∧ Val.Is Src.crate p.id (n + 4) (.arr (.path (i!"S") []) 9) w ∧ r = []) := by cases p <;> kernel_rfl
  rw [e] at h
  obtain ⟨_, rfl, _, _, rfl, h0, rfl⟩ := h
  obtain ⟨a, rfl⟩ := is_arr9 p (n + 1) _ h0
  exact ⟨⟨a⟩, rfl⟩

theorem has_Matrix3x3 (p : Prim) (l : List Ty) (n : Nat) (a : Matrix3x3 S) :
    Val.Is Src.crate p.id (n + 5) (.path (i!"Matrix3x3") l) (rep a : Val S) := by
  have e : ∀ v : Val S, Val.Is Src.crate p.id (n + 5) (.path (i!"Matrix3x3") l) v = (∃ fs, v = .obj (i!"Matrix3x3") fs ∧
      ∃ w r, fs = ((i!"m"), w) :: r ∧ Val.Is Src.crate p.id (n + 4) (.arr (.path (i!"S") []) 9) w ∧ r = []) := by intro v; cases p <;> kernel_rfl
  rw [e]
  exact ⟨_, rfl, _, _, rfl, has_arr9 p (n + 1) _, rfl⟩

theorem is_Transform2 (p : Prim) (l : List Ty) (n : Nat) (v : Val S)
    (h : Val.Is Src.crate p.id (n + 6) (.path (i!"Transform2") l) v) : ∃ a : Transform2 S, v = rep a := by
  have e : Val.Is Src.crate p.id (n + 6) (.path (i!"Transform2") l) v =
      (∃ fs, v = .obj (i!"Transform2") fs ∧ (∃ w0 r0, fs = ((i!"forward"), w0) :: r0 ∧ Val.Is Src.crate p.id (n + 5) (.path (i!"Matrix3x3") [.path (i!"S") []]) w0 ∧
        (∃ w1 r1, r0 = ((i!"inverse"), w1) :: r1 ∧ Val.Is Src.crate p.id (n + 5) (.path (i!"Matrix3x3") [.path (i!"S") []]) w1 ∧ r1 = []))) := by
    cases p <;> kernel_rfl
  rw [e] at h
  obtain ⟨_, rfl, _, _, rfl, h0, _, _, rfl, h1, rfl⟩ := h
  obtain ⟨a, rfl⟩ := is_Matrix3x3 p _ n _ h0
  obtain ⟨b, rfl⟩ := is_Matrix3x3 p _ n _ h1
  exact ⟨⟨a, b⟩, rfl⟩

theorem has_Transform2 (p : Prim) (l : List Ty) (n : Nat) (a : Transform2 S) :
    Val.Is Src.crate p.id (n + 6) (.path (i!"Transform2") l) (rep a : Val S) := by
  have e : ∀ v : Val S, Val.Is Src.crate p.id (n + 6) (.path (i!"Transform2") l) v =
      (∃ fs, v = .obj (i!"Transform2") fs ∧ (∃ w0 r0, fs = ((i!"forward"), w0) :: r0 ∧ Val.Is Src.crate p.id (n + 5) (.path (i!"Matrix3x3") [.path (i!"S") []]) w0 ∧
        (∃ w1 r1, r0 = ((i!"inverse"), w1) :: r1 ∧ Val.Is Src.crate p.id (n + 5) (.path (i!"Matrix3x3") [.path (i!"S") []]) w1 ∧ r1 = []))) := by
    intro v; cases p <;> kernel_rfl
  rw [e]
  exact ⟨_, rfl, _, _, rfl, has_Matrix3x3 p _ n _, _, _, rfl, has_Matrix3x3 p _ n _, rfl⟩

theorem is_arr16 (p : Prim) (n : Nat) (v : Val S)
    (h : Val.Is Src.crate p.id (n + 3) (.arr (.path (i!"S") []) 16) v) : ∃ a : Vector S 16, v = rep a := by
  have e : Val.Is Src.crate p.id (n + 3) (.arr (.path (i!"S") []) 16) v = (∃ l, v = .arr l ∧ (∃ w0 r0, l = w0 :: r0 ∧ (∃ s : S, w0 = .sc s) ∧ (∃ w1 r1, r0 = w1 :: r1 ∧ (∃ s : S, w1 = .sc s) ∧ (∃ w2 r2, r1 = w2 :: r2 ∧ (∃ s : S, w2 = .sc s) ∧ (∃ w3 r3, r2 = w3 :: r3 ∧ (∃ s : S, w3 = .sc s) ∧ (∃ w4 r4, r3 = w4 :: r4 ∧ (∃ s : S, w4 = .sc s) ∧ (∃ w5 r5, r4 = w5 :: r5 ∧ (∃ s : S, w5 = .sc s) ∧ (∃ w6 r6, r5 = w6 :: r6 ∧ (∃ s : S, w6 = .sc s) ∧ (∃ w7 r7, r6 = w7 :: r7 ∧ (∃ s : S, w7 = .sc s) ∧ (∃ w8 r8, r7 = w8 :: r8 ∧ (∃ s : S, w8 = .sc s) ∧ (∃ w9 r9, r8 = w9 :: r9 ∧ (∃ s : S, w9 = .sc s) ∧ (∃ w10 r10, r9 = w10 :: r10 ∧ (∃ s : S, w10 = .sc s) ∧ (∃ w11 r11, r10 = w11 :: r11 ∧ (∃ s : S, w11 = .sc s) ∧ (∃ w12 r12, r11 = w12 :: r12 ∧ (∃ s : S, w12 = .sc s) ∧ (∃ w13 r13, r12 = w13 :: r13 ∧ (∃ s : S, w13 = .sc s) ∧ (∃ w14 r14, r13 = w14 :: r14 ∧ (∃ s : S, w14 = .sc s) ∧ (∃ w15 r15, r14 = w15 :: r15 ∧ (∃ s : S, w15 = .sc s) ∧ r15 = []))))))))))))))))) := by cases p <;> kernel_rfl
  rw [e] at h
  obtain ⟨_, rfl, ⟨_, _, rfl, ⟨s0, rfl⟩, ⟨_, _, rfl, ⟨s1, rfl⟩, ⟨_, _, rfl, ⟨s2, rfl⟩, ⟨_, _, rfl, ⟨s3, rfl⟩, ⟨_, _, rfl, ⟨s4, rfl⟩, ⟨_, _, rfl, ⟨s5, rfl⟩, ⟨_, _, rfl, ⟨s6, rfl⟩, ⟨_, _, rfl, ⟨s7, rfl⟩, ⟨_, _, rfl, ⟨s8, rfl⟩, ⟨_, _, rfl, ⟨s9, rfl⟩, ⟨_, _, rfl, ⟨s10, rfl⟩, ⟨_, _, rfl, ⟨s11, rfl⟩, ⟨_, _, rfl, ⟨s12, rfl⟩, ⟨_, _, rfl, ⟨s13, rfl⟩, ⟨_, _, rfl, ⟨s14, rfl⟩, ⟨_, _, rfl, ⟨s15, rfl⟩, rfl⟩⟩⟩⟩⟩⟩⟩⟩⟩⟩⟩⟩⟩⟩⟩⟩⟩ := h
  exact ⟨#v[s0, s1, s2, s3, s4, s5, s6, s7, s8, s9, s10, s11, s12, s13, s14, s15], rfl⟩

theorem has_arr16 (p : Prim) (n : Nat) (a : Vector S 16) : Val.Is Src.crate p.id (n + 3) (.arr (.path (i!"S") []) 16) (rep a : Val S) := by
  have e : ∀ v : Val S, Val.Is Src.crate p.id (n + 3) (.arr (.path (i!"S") []) 16) v = (∃ l, v = .arr l ∧ (∃ w0 r0, l = w0 :: r0 ∧ (∃ s : S, w0 = .sc s) ∧ (∃ w1 r1, r0 = w1 :: r1 ∧ (∃ s : S, w1 = .sc s) ∧ (∃ w2 r2, r1 = w2 :: r2 ∧ (∃ s : S, w2 = .sc s) ∧ (∃ w3 r3, r2 = w3 :: r3 ∧ (∃ s : S, w3 = .sc s) ∧ (∃ w4 r4, r3 = w4 :: r4 ∧ (∃ s : S, w4 = .sc s) ∧ (∃ w5 r5, r4 = w5 :: r5 ∧ (∃ s : S, w5 = .sc s) ∧ (∃ w6 r6, r5 = w6 :: r6 ∧ (∃ s : S, w6 = .sc s) ∧ (∃ w7 r7, r6 = w7 :: r7 ∧ (∃ s : S, w7 = .sc s) ∧ (∃ w8 r8, r7 = w8 :: r8 ∧ (∃ s : S, w8 = .sc s) ∧ (∃ w9 r9, r8 = w9 :: r9 ∧ (∃ s : S, w9 = .sc s) ∧ (∃ w10 r10, r9 = w10 :: r10 ∧ (∃ s : S, w10 = .sc s) ∧ (∃ w11 r11, r10 = w11 :: r11 ∧ (∃ s : S, w11 = .sc s) ∧ (∃ w12 r12, r11 = w12 :: r12 ∧ (∃ s : S, w12 = .sc s) ∧ (∃ w13 r13, r12 = w13 :: r13 ∧ (∃ s : S, w13 = .sc s) ∧ (∃ w14 r14, r13 = w14 :: r14 ∧ (∃ s : S, w14 = .sc s) ∧ (∃ w15 r15, r14 = w15 :: r15 ∧ (∃ s : S, w15 = .sc s) ∧ r15 = []))))))))))))))))) := by intro v; cases p <;> kernel_rfl
  rw [e]
  exact ⟨_, rfl, ⟨_, _, rfl, ⟨_, rfl⟩, ⟨_, _, rfl, ⟨_, rfl⟩, ⟨_, _, rfl, ⟨_, rfl⟩, ⟨_, _, rfl, ⟨_, rfl⟩, ⟨_, _, rfl, ⟨_, rfl⟩, ⟨_, _, rfl, ⟨_, rfl⟩, ⟨_, _, rfl, ⟨_, rfl⟩, ⟨_, _, rfl, ⟨_, rfl⟩, ⟨_, _, rfl, ⟨_, rfl⟩, ⟨_, _, rfl, ⟨_, rfl⟩, ⟨_, _, rfl, ⟨_, rfl⟩, ⟨_, _, rfl, ⟨_, rfl⟩, ⟨_, _, rfl, ⟨_, rfl⟩, ⟨_, _, rfl, ⟨_, rfl⟩, ⟨_, _, rfl, ⟨_, rfl⟩, ⟨_, _, rfl, ⟨_, rfl⟩, rfl⟩⟩⟩⟩⟩⟩⟩⟩⟩⟩⟩⟩⟩⟩⟩⟩⟩

theorem is_Matrix4x4 (p : Prim) (l : List Ty) (n : Nat) (v : Val S)
    (h : Val.Is Src.crate p.id (n + 5) (.path (i!"Matrix4x4") l) v) : ∃ a : Matrix4x4 S, v = rep a := by
  have e : Val.Is Src.crate p.id (n + 5) (.path (i!"Matrix4x4") l) v = (∃ fs, v = .obj (i!"Matrix4x4") fs ∧
      ∃ w r, fs = ((i!"m"), w) :: r ∧ Val.Is Src.crate p.id (n + 4) (.arr (.path (i!"S") []) 16) w ∧ r = []) := by cases p <;> kernel_rfl
  rw [e] at h
  obtain ⟨_, rfl, _, _, rfl, h0, rfl⟩ := h
  obtain ⟨a, rfl⟩ := is_arr16 p (n + 1) _ h0
  exact ⟨⟨a⟩, rfl⟩

theorem has_Matrix4x4 (p : Prim) (l : List Ty) (n : Nat) (a : Matrix4x4 S) :
    Val.Is Src.crate p.id (n + 5) (.path (i!"Matrix4x4") l) (rep a : Val S) := by
  have e : ∀ v : Val S, Val.Is Src.crate p.id (n + 5) (.path (i!"Matrix4x4") l) v = (∃ fs, v = .obj (i!"Matrix4x4") fs ∧
      ∃ w r, fs = ((i!"m"), w) :: r ∧ Val.Is Src.crate p.id (n + 4) (.arr (.path (i!"S") []) 16) w ∧ r = []) := by intro v; cases p <;> kernel_rfl
  rw [e]
  exact ⟨_, rfl, _, _, rfl, has_arr16 p (n + 1) _, rfl⟩

theorem is_Transform3 (p : Prim) (l : List Ty) (n : Nat) (v : Val S)
    (h : Val.Is Src.crate p.id (n + 6) (.path (i!"Transform3") l) v) : ∃ a : Transform3 S, v = rep a := by
  have e : Val.Is Src.crate p.id (n + 6) (.path (i!"Transform3") l) v =
      (∃ fs, v = .obj (i!"Transform3") fs ∧ (∃ w0 r0, fs = ((i!"forward"), w0) :: r0 ∧ Val.Is Src.crate p.id (n + 5) (.path (i!"Matrix4x4") [.path (i!"S") []]) w0 ∧
        (∃ w1 r1, r0 = ((i!"inverse"), w1) :: r1 ∧ Val.Is Src.crate p.id (n + 5) (.path (i!"Matrix4x4") [.path (i!"S") []]) w1 ∧ r1 = []))) := by
    cases p <;> kernel_rfl
  rw [e] at h
  obtain ⟨_, rfl, _, _, rfl, h0, _, _, rfl, h1, rfl⟩ := h
  obtain ⟨a, rfl⟩ := is_Matrix4x4 p _ n _ h0
  obtain ⟨b, rfl⟩ := is_Matrix4x4 p _ n _ h1
  exact ⟨⟨a, b⟩, rfl⟩

theorem has_Transform3 (p : Prim) (l : List Ty) (n : Nat) (a : Transform3 S) :
    Val.Is Src.crate p.id (n + 6) (.path (i!"Transform3") l) (rep a : Val S) := by
  have e : ∀ v : Val S, Val.Is Src.crate p.id (n + 6) (.path (i!"Transform3") l) v =
      (∃ fs, v = .obj (i!"Transform3") fs ∧ (∃ w0 r0, fs = ((i!"forward"), w0) :: r0 ∧ Val.Is Src.crate p.id (n + 5) (.path (i!"Matrix4x4") [.path (i!"S") []]) w0 ∧
        (∃ w1 r1, r0 = ((i!"inverse"), w1) :: r1 ∧ Val.Is Src.crate p.id (n + 5) (.path (i!"Matrix4x4") [.path (i!"S") []]) w1 ∧ r1 = []))) := by
    intro v; cases p <;> kernel_rfl
  rw [e]
  exact ⟨_, rfl, _, _, rfl, has_Matrix4x4 p _ n _, _, _, rfl, has_Matrix4x4 p _ n _, rfl⟩

theorem is_Dimension2 (p : Prim) (l : List Ty) (n : Nat) (v : Val S)
    (h : Val.Is Src.crate p.id (n + 2) (.path (i!"Dimension2") l) v) : ∃ a : Dimension2, v = rep a := by
  have e : Val.Is Src.crate p.id (n + 2) (.path (i!"Dimension2") l) v =
      (∃ y, y ∈ [(i!"X" : Ident), (i!"Y" : Ident)] ∧ v = .enm (i!"Dimension2") y) := by cases p <;> kernel_rfl
  rw [e] at h
  obtain ⟨y, hy, rfl⟩ := h
  simp only [List.mem_cons, List.not_mem_nil, or_false] at hy
  rcases hy with rfl | rfl
  · exact ⟨.X, rfl⟩
  · exact ⟨.Y, rfl⟩

theorem has_Dimension2 (p : Prim) (l : List Ty) (n : Nat) (a : Dimension2) : Val.Is Src.crate p.id (n + 2) (.path (i!"Dimension2") l) (rep a : Val S) := by
  have e : ∀ v : Val S, Val.Is Src.crate p.id (n + 2) (.path (i!"Dimension2") l) v =
      (∃ y, y ∈ [(i!"X" : Ident), (i!"Y" : Ident)] ∧ v = .enm (i!"Dimension2") y) := by intro v; cases p <;> kernel_rfl
  rw [e]
  cases a <;> exact ⟨_, by decide, rfl⟩

theorem is_Dimension3 (p : Prim) (l : List Ty) (n : Nat) (v : Val S)
    (h : Val.Is Src.crate p.id (n + 2) (.path (i!"Dimension3") l) v) : ∃ a : Dimension3, v = rep a := by
  have e : Val.Is Src.crate p.id (n + 2) (.path (i!"Dimension3") l) v =
      (∃ y, y ∈ [(i!"X" : Ident), (i!"Y" : Ident), (i!"Z" : Ident)] ∧ v = .enm (i!"Dimension3") y) := by cases p <;> kernel_rfl
  rw [e] at h
  obtain ⟨y, hy, rfl⟩ := h
  simp only [List.mem_cons, List.not_mem_nil, or_false] at hy
  rcases hy with rfl | rfl | rfl
  · exact ⟨.X, rfl⟩
  · exact ⟨.Y, rfl⟩
  · exact ⟨.Z, rfl⟩

theorem has_Dimension3 (p : Prim) (l : List Ty) (n : Nat) (a : Dimension3) : Val.Is Src.crate p.id (n + 2) (.path (i!"Dimension3") l) (rep a : Val S) := by
  have e : ∀ v : Val S, Val.Is Src.crate p.id (n + 2) (.path (i!"Dimension3") l) v =
      (∃ y, y ∈ [(i!"X" : Ident), (i!"Y" : Ident), (i!"Z" : Ident)] ∧ v = .enm (i!"Dimension3") y) := by intro v; cases p <;> kernel_rfl
  rw [e]
  cases a <;> exact ⟨_, by decide, rfl⟩

theorem is_S (p : Prim) (l : List Ty) (n : Nat) (v : Val S)
    (h : Val.Is Src.crate p.id (n + 1) (.path (i!"S") l) v) : ∃ s : S, v = .sc s := by
  have e : Val.Is Src.crate p.id (n + 1) (.path (i!"S") l) v = (∃ s : S, v = .sc s) := by cases p <;> kernel_rfl
  exact e ▸ h

theorem is_u32 (p : Prim) (l : List Ty) (n : Nat) (v : Val S)
    (h : Val.Is Src.crate p.id (n + 1) (.path (i!"u32") l) v) : ∃ k : UInt32, v = rep k := by
  have e : Val.Is Src.crate p.id (n + 1) (.path (i!"u32") l) v = (∃ k : Nat, k < 2 ^ 32 ∧ v = .int k) := by
    cases p <;> kernel_rfl
  rw [e] at h
  obtain ⟨k, hk, rfl⟩ := h
  exact ⟨UInt32.ofNatLT k hk, rfl⟩

theorem has_u32 (p : Prim) (l : List Ty) (n : Nat) (a : UInt32) :
    Val.Is Src.crate p.id (n + 1) (.path (i!"u32") l) (rep a : Val S) := by
  have e : ∀ v : Val S, Val.Is Src.crate p.id (n + 1) (.path (i!"u32") l) v = (∃ k : Nat, k < 2 ^ 32 ∧ v = .int k) := by
    intro v; cases p <;> kernel_rfl
  rw [e]
  exact ⟨_, a.toNat_lt, rfl⟩

theorem has_S (p : Prim) (l : List Ty) (n : Nat) (s : S) : Val.Is Src.crate p.id (n + 1) (.path (i!"S") l) (.sc s) := by
  have e : ∀ v : Val S, Val.Is Src.crate p.id (n + 1) (.path (i!"S") l) v = (∃ s : S, v = .sc s) := by
    intro v; cases p <;> kernel_rfl
  rw [e]
  exact ⟨_, rfl⟩

theorem is_f32 (p : Prim) (l : List Ty) (n : Nat) (v : Val S)
    (h : Val.Is Src.crate p.id (n + 1) (.path (i!"f32") l) v) : p = .f32 ∧ ∃ s : S, v = .sc s := by
  cases p with
  | f32 =>
    have e : Val.Is Src.crate Prim.f32.id (n + 1) (.path (i!"f32") l) v = (∃ s : S, v = .sc s) := by kernel_rfl
    exact ⟨rfl, e ▸ h⟩
  | f64 =>
    have e : Val.Is Src.crate Prim.f64.id (n + 1) (.path (i!"f32") l) v = False := by kernel_rfl
    exact (e ▸ h).elim

theorem is_Vector2f (p : Prim) (l : List Ty) (n : Nat) (v : Val S)
    (h : Val.Is Src.crate p.id (n + 6) (.path (i!"Vector2f") l) v) : p = .f32 ∧ ∃ a : Vector2 S, v = rep a := by
  cases p with
  | f32 =>
    have e : Val.Is Src.crate Prim.f32.id (n + 6) (.path (i!"Vector2f") l) v =
        Val.Is Src.crate Prim.f32.id (n + 5) (.path (i!"Vector2") []) v := by kernel_rfl
    exact ⟨rfl, is_Vector2 .f32 _ n v (e ▸ h)⟩
  | f64 =>
    have e : Val.Is Src.crate Prim.f64.id (n + 6) (.path (i!"Vector2f") l) v = False := by kernel_rfl
    exact (e ▸ h).elim

theorem is_Vector3f (p : Prim) (l : List Ty) (n : Nat) (v : Val S)
    (h : Val.Is Src.crate p.id (n + 6) (.path (i!"Vector3f") l) v) : p = .f32 ∧ ∃ a : Vector3 S, v = rep a := by
  cases p with
  | f32 =>
    have e : Val.Is Src.crate Prim.f32.id (n + 6) (.path (i!"Vector3f") l) v =
        Val.Is Src.crate Prim.f32.id (n + 5) (.path (i!"Vector3") []) v := by kernel_rfl
    exact ⟨rfl, is_Vector3 .f32 _ n v (e ▸ h)⟩
  | f64 =>
    have e : Val.Is Src.crate Prim.f64.id (n + 6) (.path (i!"Vector3f") l) v = False := by kernel_rfl
    exact (e ▸ h).elim

theorem is_Point2f (p : Prim) (l : List Ty) (n : Nat) (v : Val S)
    (h : Val.Is Src.crate p.id (n + 6) (.path (i!"Point2f") l) v) : p = .f32 ∧ ∃ a : Point2 S, v = rep a := by
  cases p with
  | f32 =>
    have e : Val.Is Src.crate Prim.f32.id (n + 6) (.path (i!"Point2f") l) v =
        Val.Is Src.crate Prim.f32.id (n + 5) (.path (i!"Point2") []) v := by kernel_rfl
    exact ⟨rfl, is_Point2 .f32 _ n v (e ▸ h)⟩
  | f64 =>
    have e : Val.Is Src.crate Prim.f64.id (n + 6) (.path (i!"Point2f") l) v = False := by kernel_rfl
    exact (e ▸ h).elim

theorem is_Point3f (p : Prim) (l : List Ty) (n : Nat) (v : Val S)
    (h : Val.Is Src.crate p.id (n + 6) (.path (i!"Point3f") l) v) : p = .f32 ∧ ∃ a : Point3 S, v = rep a := by
  cases p with
  | f32 =>
    have e : Val.Is Src.crate Prim.f32.id (n + 6) (.path (i!"Point3f") l) v =
        Val.Is Src.crate Prim.f32.id (n + 5) (.path (i!"Point3") []) v := by kernel_rfl
    exact ⟨rfl, is_Point3 .f32 _ n v (e ▸ h)⟩
  | f64 =>
    have e : Val.Is Src.crate Prim.f64.id (n + 6) (.path (i!"Point3f") l) v = False := by kernel_rfl
    exact (e ▸ h).elim

theorem is_Matrix3x3f (p : Prim) (l : List Ty) (n : Nat) (v : Val S)
    (h : Val.Is Src.crate p.id (n + 6) (.path (i!"Matrix3x3f") l) v) : p = .f32 ∧ ∃ a : Matrix3x3 S, v = rep a := by
  cases p with
  | f32 =>
    have e : Val.Is Src.crate Prim.f32.id (n + 6) (.path (i!"Matrix3x3f") l) v =
        Val.Is Src.crate Prim.f32.id (n + 5) (.path (i!"Matrix3x3") []) v := by kernel_rfl
    exact ⟨rfl, is_Matrix3x3 .f32 _ n v (e ▸ h)⟩
  | f64 =>
    have e : Val.Is Src.crate Prim.f64.id (n + 6) (.path (i!"Matrix3x3f") l) v = False := by kernel_rfl
    exact (e ▸ h).elim

theorem is_Matrix4x4f (p : Prim) (l : List Ty) (n : Nat) (v : Val S)
    (h : Val.Is Src.crate p.id (n + 6) (.path (i!"Matrix4x4f") l) v) : p = .f32 ∧ ∃ a : Matrix4x4 S, v = rep a := by
  cases p with
  | f32 =>
    have e : Val.Is Src.crate Prim.f32.id (n + 6) (.path (i!"Matrix4x4f") l) v =
        Val.Is Src.crate Prim.f32.id (n + 5) (.path (i!"Matrix4x4") []) v := by kernel_rfl
    exact ⟨rfl, is_Matrix4x4 .f32 _ n v (e ▸ h)⟩
  | f64 =>
    have e : Val.Is Src.crate Prim.f64.id (n + 6) (.path (i!"Matrix4x4f") l) v = False := by kernel_rfl
    exact (e ▸ h).elim

theorem is_f64 (p : Prim) (l : List Ty) (n : Nat) (v : Val S)
    (h : Val.Is Src.crate p.id (n + 1) (.path (i!"f64") l) v) : p = .f64 ∧ ∃ s : S, v = .sc s := by
  cases p with
  | f64 =>
    have e : Val.Is Src.crate Prim.f64.id (n + 1) (.path (i!"f64") l) v = (∃ s : S, v = .sc s) := by kernel_rfl
    exact ⟨rfl, e ▸ h⟩
  | f32 =>
    have e : Val.Is Src.crate Prim.f32.id (n + 1) (.path (i!"f64") l) v = False := by kernel_rfl
    exact (e ▸ h).elim

theorem is_Vector2d (p : Prim) (l : List Ty) (n : Nat) (v : Val S)
    (h : Val.Is Src.crate p.id (n + 6) (.path (i!"Vector2d") l) v) : p = .f64 ∧ ∃ a : Vector2 S, v = rep a := by
  cases p with
  | f64 =>
    have e : Val.Is Src.crate Prim.f64.id (n + 6) (.path (i!"Vector2d") l) v =
        Val.Is Src.crate Prim.f64.id (n + 5) (.path (i!"Vector2") []) v := by kernel_rfl
    exact ⟨rfl, is_Vector2 .f64 _ n v (e ▸ h)⟩
  | f32 =>
    have e : Val.Is Src.crate Prim.f32.id (n + 6) (.path (i!"Vector2d") l) v = False := by kernel_rfl
    exact (e ▸ h).elim

theorem is_Vector3d (p : Prim) (l : List Ty) (n : Nat) (v : Val S)
    (h : Val.Is Src.crate p.id (n + 6) (.path (i!"Vector3d") l) v) : p = .f64 ∧ ∃ a : Vector3 S, v = rep a := by
  cases p with
  | f64 =>
    have e : Val.Is Src.crate Prim.f64.id (n + 6) (.path (i!"Vector3d") l) v =
        Val.Is Src.crate Prim.f64.id (n + 5) (.path (i!"Vector3") []) v := by kernel_rfl
    exact ⟨rfl, is_Vector3 .f64 _ n v (e ▸ h)⟩
  | f32 =>
    have e : Val.Is Src.crate Prim.f32.id (n + 6) (.path (i!"Vector3d") l) v = False := by kernel_rfl
    exact (e ▸ h).elim

theorem is_Point2d (p : Prim) (l : List Ty) (n : Nat) (v : Val S)
    (h : Val.Is Src.crate p.id (n + 6) (.path (i!"Point2d") l) v) : p = .f64 ∧ ∃ a : Point2 S, v = rep a := by
  cases p with
  | f64 =>
    have e : Val.Is Src.crate Prim.f64.id (n + 6) (.path (i!"Point2d") l) v =
        Val.Is Src.crate Prim.f64.id (n + 5) (.path (i!"Point2") []) v := by kernel_rfl
    exact ⟨rfl, is_Point2 .f64 _ n v (e ▸ h)⟩
  | f32 =>
    have e : Val.Is Src.crate Prim.f32.id (n + 6) (.path (i!"Point2d") l) v = False := by kernel_rfl
    exact (e ▸ h).elim

theorem is_Point3d (p : Prim) (l : List Ty) (n : Nat) (v : Val S)
    (h : Val.Is Src.crate p.id (n + 6) (.path (i!"Point3d") l) v) : p = .f64 ∧ ∃ a : Point3 S, v = rep a := by
  cases p with
  | f64 =>
    have e : Val.Is Src.crate Prim.f64.id (n + 6) (.path (i!"Point3d") l) v =
        Val.Is Src.crate Prim.f64.id (n + 5) (.path (i!"Point3") []) v := by kernel_rfl
    exact ⟨rfl, is_Point3 .f64 _ n v (e ▸ h)⟩
  | f32 =>
    have e : Val.Is Src.crate Prim.f32.id (n + 6) (.path (i!"Point3d") l) v = False := by kernel_rfl
    exact (e ▸ h).elim

theorem is_Matrix3x3d (p : Prim) (l : List Ty) (n : Nat) (v : Val S)
    (h : Val.Is Src.crate p.id (n + 6) (.path (i!"Matrix3x3d") l) v) : p = .f64 ∧ ∃ a : Matrix3x3 S, v = rep a := by
  cases p with
  | f64 =>
    have e : Val.Is Src.crate Prim.f64.id (n + 6) (.path (i!"Matrix3x3d") l) v =
        Val.Is Src.crate Prim.f64.id (n + 5) (.path (i!"Matrix3x3") []) v := by kernel_rfl
    exact ⟨rfl, is_Matrix3x3 .f64 _ n v (e ▸ h)⟩
  | f32 =>
    have e : Val.Is Src.crate Prim.f32.id (n + 6) (.path (i!"Matrix3x3d") l) v = False := by kernel_rfl
    exact (e ▸ h).elim

theorem is_Matrix4x4d (p : Prim) (l : List Ty) (n : Nat) (v : Val S)
    (h : Val.Is Src.crate p.id (n + 6) (.path (i!"Matrix4x4d") l) v) : p = .f64 ∧ ∃ a : Matrix4x4 S, v = rep a := by
  cases p with
  | f64 =>
    have e : Val.Is Src.crate Prim.f64.id (n + 6) (.path (i!"Matrix4x4d") l) v =
        Val.Is Src.crate Prim.f64.id (n + 5) (.path (i!"Matrix4x4") []) v := by kernel_rfl
    exact ⟨rfl, is_Matrix4x4 .f64 _ n v (e ▸ h)⟩
  | f32 =>
    have e : Val.Is Src.crate Prim.f32.id (n + 6) (.path (i!"Matrix4x4d") l) v = False := by kernel_rfl
    exact (e ▸ h).elim

end VecMath.Rust

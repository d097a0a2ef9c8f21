import Verif.Rust.Access
/-! # The source text computes what the model says: 3D transforms

Generated by `tools/gen/refine.py`. `Src.method S p b name self args` is the outcome of evaluating the call
`self.name(args)` on the syntax tree of the source text (`Rust/Source.lean`), with `p` the primitive type and `b` the
build profile; `rep` is the representation of a value of the model. An outcome `.ok v s` means that the call returns
`v` and leaves its receiver as `s`: it neither panics nor runs forever. -/

namespace VecMath.Rust
open VecMath Scalar
variable {S : Type} [Scalar S]

theorem C81_Matrix4x4_new (p : Prim) (b : Build) (m : Vector S 16) :
    Src.assoc S p b (i!"Matrix4x4") (i!"new") [rep m] =
      .ok (rep (Matrix4x4.new m)) (.unit) := by
  cases p <;> kernel_rfl

theorem C81_Matrix4x4_identity (p : Prim) (b : Build)  :
    Src.assoc S p b (i!"Matrix4x4") (i!"identity") [] =
      .ok (rep (Matrix4x4.identity  : Matrix4x4 S)) (.unit) := by
  cases p <;> kernel_rfl

theorem C81_Matrix4x4_translate (p : Prim) (b : Build) (v : Vector3 S) :
    Src.assoc S p b (i!"Matrix4x4") (i!"translate") [rep v] =
      .ok (rep (Matrix4x4.translate v : Matrix4x4 S)) (.unit) := by
  cases p <;> kernel_rfl

theorem C81_Matrix4x4_scale (p : Prim) (b : Build) (sx sy sz : S) :
    Src.assoc S p b (i!"Matrix4x4") (i!"scale") [.sc sx, .sc sy, .sc sz] =
      .ok (rep (Matrix4x4.scale sx sy sz : Matrix4x4 S)) (.unit) := by
  cases p <;> kernel_rfl

theorem C81_Matrix4x4_scale_uniform (p : Prim) (b : Build) (s : S) :
    Src.assoc S p b (i!"Matrix4x4") (i!"scale_uniform") [.sc s] =
      .ok (rep (Matrix4x4.scaleUniform s : Matrix4x4 S)) (.unit) := by
  cases p <;> kernel_rfl

theorem C81_Matrix4x4_rotate_x (p : Prim) (b : Build) (angle : S) :
    Src.assoc S p b (i!"Matrix4x4") (i!"rotate_x") [.sc angle] =
      .ok (rep (Matrix4x4.rotateX angle : Matrix4x4 S)) (.unit) := by
  cases p <;> kernel_rfl

theorem C81_Matrix4x4_rotate_y (p : Prim) (b : Build) (angle : S) :
    Src.assoc S p b (i!"Matrix4x4") (i!"rotate_y") [.sc angle] =
      .ok (rep (Matrix4x4.rotateY angle : Matrix4x4 S)) (.unit) := by
  cases p <;> kernel_rfl

theorem C81_Matrix4x4_rotate_z (p : Prim) (b : Build) (angle : S) :
    Src.assoc S p b (i!"Matrix4x4") (i!"rotate_z") [.sc angle] =
      .ok (rep (Matrix4x4.rotateZ angle : Matrix4x4 S)) (.unit) := by
  cases p <;> kernel_rfl

theorem C81_Matrix4x4_rotate_axis (p : Prim) (b : Build) (axis : Vector3 S) (angle : S) :
    Src.assoc S p b (i!"Matrix4x4") (i!"rotate_axis") [rep axis, .sc angle] =
      .ok (rep (Matrix4x4.rotateAxis axis angle : Matrix4x4 S)) (.unit) := by
  cases p <;> kernel_rfl

theorem C81_Transform3_identity (p : Prim) (b : Build)  :
    Src.assoc S p b (i!"Transform3") (i!"identity") [] =
      .ok (rep (Transform3.identity  : Transform3 S)) (.unit) := by
  cases p <;> kernel_rfl

theorem C81_Transform3_translate (p : Prim) (b : Build) (v : Vector3 S) :
    Src.assoc S p b (i!"Transform3") (i!"translate") [rep v] =
      .ok (rep (Transform3.translate v : Transform3 S)) (.unit) := by
  cases p <;> kernel_rfl

theorem C81_Transform3_scale (p : Prim) (b : Build) (sx sy sz : S) :
    Src.assoc S p b (i!"Transform3") (i!"scale") [.sc sx, .sc sy, .sc sz] =
      .ok (rep (Transform3.scale sx sy sz : Transform3 S)) (.unit) := by
  cases p <;> kernel_rfl

theorem C81_Transform3_scale_uniform (p : Prim) (b : Build) (s : S) :
    Src.assoc S p b (i!"Transform3") (i!"scale_uniform") [.sc s] =
      .ok (rep (Transform3.scaleUniform s : Transform3 S)) (.unit) := by
  cases p <;> kernel_rfl

theorem C81_Transform3_rotate_x (p : Prim) (b : Build) (angle : S) :
    Src.assoc S p b (i!"Transform3") (i!"rotate_x") [.sc angle] =
      .ok (rep (Transform3.rotateX angle : Transform3 S)) (.unit) := by
  cases p <;> kernel_rfl

theorem C81_Transform3_rotate_y (p : Prim) (b : Build) (angle : S) :
    Src.assoc S p b (i!"Transform3") (i!"rotate_y") [.sc angle] =
      .ok (rep (Transform3.rotateY angle : Transform3 S)) (.unit) := by
  cases p <;> kernel_rfl

theorem C81_Transform3_rotate_z (p : Prim) (b : Build) (angle : S) :
    Src.assoc S p b (i!"Transform3") (i!"rotate_z") [.sc angle] =
      .ok (rep (Transform3.rotateZ angle : Transform3 S)) (.unit) := by
  cases p <;> kernel_rfl

theorem C81_Transform3_rotate_axis (p : Prim) (b : Build) (axis : Vector3 S) (angle : S) :
    Src.assoc S p b (i!"Transform3") (i!"rotate_axis") [rep axis, .sc angle] =
      .ok (rep (Transform3.rotateAxis axis angle : Transform3 S)) (.unit) := by
  cases p <;> kernel_rfl

theorem C81_Matrix4x4_inverse_look_at (p : Prim) (b : Build) (origin target : Point3 S) (up : Vector3 S) :
    Src.assoc S p b (i!"Matrix4x4") (i!"inverse_look_at") [rep origin, rep target, rep up] =
      .ok (rep (Matrix4x4.inverseLookAt origin target up)) (.unit) := by
  cases p <;> kernel_rfl

theorem C81_Matrix4x4_transpose (p : Prim) (b : Build) (self : Matrix4x4 S) :
    Src.method S p b (i!"transpose") (rep self) [] =
      .ok (rep self.transpose) (rep self) := by
  cases p <;> kernel_rfl

theorem C81_Matrix4x4_mul (p : Prim) (b : Build) (self : Matrix4x4 S) (s : S) :
    Src.method S p b (i!"mul") (rep self) [.sc s] =
      .ok (rep (self * s)) (rep self) := by
  cases p <;> kernel_rfl

theorem C81_Matrix4x4_mul_assign (p : Prim) (b : Build) (self : Matrix4x4 S) (s : S) :
    Src.method S p b (i!"mul_assign") (rep self) [.sc s] =
      .ok .unit (rep (self.mulAssign s)) := by
  have h : Src.method S p b (i!"mul_assign") (rep self) [.sc s] =
      .ok .unit (.obj (i!"Matrix4x4") [(i!"m", .arr [.sc (self.m[0] * s), .sc (self.m[1] * s), .sc (self.m[2] * s), .sc (self.m[3] * s), .sc (self.m[4] * s), .sc (self.m[5] * s), .sc (self.m[6] * s), .sc (self.m[7] * s), .sc (self.m[8] * s), .sc (self.m[9] * s), .sc (self.m[10] * s), .sc (self.m[11] * s), .sc (self.m[12] * s), .sc (self.m[13] * s), .sc (self.m[14] * s), .sc (self.m[15] * s)])]) := by
    cases p <;> kernel_rfl
  rw [h]
  simp only [rep, Matrix4x4.mulAssign, Vector.getElem_map]

theorem C81_Matrix4x4_div (p : Prim) (b : Build) (self : Matrix4x4 S) (s : S) :
    Src.method S p b (i!"div") (rep self) [.sc s] =
      .ok (rep (self / s)) (rep self) := by
  cases p <;> kernel_rfl

theorem C81_Matrix4x4_div_assign (p : Prim) (b : Build) (self : Matrix4x4 S) (s : S) :
    Src.method S p b (i!"div_assign") (rep self) [.sc s] =
      .ok .unit (rep (self.divAssign s)) := by
  have h : Src.method S p b (i!"div_assign") (rep self) [.sc s] =
      .ok .unit (.obj (i!"Matrix4x4") [(i!"m", .arr [.sc (self.m[0] / s), .sc (self.m[1] / s), .sc (self.m[2] / s), .sc (self.m[3] / s), .sc (self.m[4] / s), .sc (self.m[5] / s), .sc (self.m[6] / s), .sc (self.m[7] / s), .sc (self.m[8] / s), .sc (self.m[9] / s), .sc (self.m[10] / s), .sc (self.m[11] / s), .sc (self.m[12] / s), .sc (self.m[13] / s), .sc (self.m[14] / s), .sc (self.m[15] / s)])]) := by
    cases p <;> kernel_rfl
  rw [h]
  simp only [rep, Matrix4x4.divAssign, Vector.getElem_map]

theorem C81_scalar_mul_Matrix4x4 (p : Prim) (b : Build) (self : S) (m : Matrix4x4 S) :
    Src.method S p b (i!"mul") (.sc self) [rep m] =
      .ok (rep (self * m)) (.sc self) := by
  cases p <;> kernel_rfl

theorem C81_Matrix4x4_mul_Point3 (p : Prim) (b : Build) (self : Matrix4x4 S) (q : Point3 S) :
    Src.method S p b (i!"mul") (rep self) [rep q] =
      .ok (rep (self * q)) (rep self) := by
  cases p <;> kernel_rfl

theorem C81_Point3_mul_Matrix4x4 (p : Prim) (b : Build) (self : Point3 S) (m : Matrix4x4 S) :
    Src.method S p b (i!"mul") (rep self) [rep m] =
      .ok (rep (self * m)) (rep self) := by
  cases p <;> kernel_rfl

theorem C81_Matrix4x4_mul_Vector3 (p : Prim) (b : Build) (self : Matrix4x4 S) (q : Vector3 S) :
    Src.method S p b (i!"mul") (rep self) [rep q] =
      .ok (rep (self * q)) (rep self) := by
  cases p <;> kernel_rfl

theorem C81_Vector3_mul_Matrix4x4 (p : Prim) (b : Build) (self : Vector3 S) (m : Matrix4x4 S) :
    Src.method S p b (i!"mul") (rep self) [rep m] =
      .ok (rep (self * m)) (rep self) := by
  cases p <;> kernel_rfl

theorem C81_Matrix4x4_mul_Matrix4x4 (p : Prim) (b : Build) (self m : Matrix4x4 S) :
    Src.method S p b (i!"mul") (rep self) [rep m] =
      .ok (rep (self * m)) (rep self) := by
  cases p <;> kernel_rfl

theorem C81_Matrix4x4_inverse (p : Prim) (b : Build) (self : Matrix4x4 S) :
    Src.method S p b (i!"inverse") (rep self) [] =
      .ok (rep self.inverse) (rep self) := by
  have h : Src.method S p b (i!"inverse") (rep self) [] =
      bif self.detOf self.adjugate != Scalar.zero then .ok (rep (.ok (self.adjugate / self.detOf self.adjugate) : Except NonInvertibleMatrixError (Matrix4x4 S))) (rep self)
      else .ok (rep (.error .mk : Except NonInvertibleMatrixError (Matrix4x4 S))) (rep self) := by
    cases p <;> cases b <;> kernel_rfl
  have k : ∀ c : Bool, (bif c then .ok (rep (.ok (self.adjugate / self.detOf self.adjugate) : Except NonInvertibleMatrixError (Matrix4x4 S))) (rep self)
      else .ok (rep (.error .mk : Except NonInvertibleMatrixError (Matrix4x4 S))) (rep self)) =
      (.ok (rep (if c then .ok (self.adjugate / self.detOf self.adjugate) else .error .mk : Except NonInvertibleMatrixError (Matrix4x4 S))) (rep self) : Out S) := by
    intro c; cases c <;> rfl
  exact h.trans (k _)

theorem C81_Transform3_new (p : Prim) (b : Build) (forward inverse : Matrix4x4 S) :
    Src.assoc S p b (i!"Transform3") (i!"new") [rep forward, rep inverse] =
      .ok (rep (Transform3.new forward inverse)) (.unit) := by
  cases p <;> kernel_rfl

theorem C81_Transform3_and_then (p : Prim) (b : Build) (self next : Transform3 S) :
    Src.method S p b (i!"and_then") (rep self) [rep next] =
      .ok (rep (self.andThen next)) (rep self) := by
  cases p <;> kernel_rfl

theorem C81_Transform3_inverse (p : Prim) (b : Build) (self : Transform3 S) :
    Src.method S p b (i!"inverse") (rep self) [] =
      .ok (rep self.inv) (rep self) := by
  cases p <;> kernel_rfl

theorem C81_Transform3_transform_Point3 (p : Prim) (b : Build) (self : Transform3 S) (value : Point3 S) :
    Src.method S p b (i!"transform") (rep self) [rep value] =
      .ok (rep (Transform.transform self value)) (rep self) := by
  cases p <;> kernel_rfl

theorem C81_Transform3_transform_Vector3 (p : Prim) (b : Build) (self : Transform3 S) (value : Vector3 S) :
    Src.method S p b (i!"transform") (rep self) [rep value] =
      .ok (rep (Transform.transform self value)) (rep self) := by
  cases p <;> kernel_rfl

theorem C81_Transform3_transform_Ray3 (p : Prim) (b : Build) (self : Transform3 S) (value : Ray3 S) :
    Src.method S p b (i!"transform") (rep self) [rep value] =
      .ok (rep (Transform.transform self value)) (rep self) := by
  cases p <;> kernel_rfl

theorem C81_Transform3_transform_BoundingBox3 (p : Prim) (b : Build) (self : Transform3 S) (value : BoundingBox3 S) :
    Src.method S p b (i!"transform") (rep self) [rep value] =
      .ok (rep (Transform.transform self value)) (rep self) := by
  cases p <;> kernel_rfl

theorem C81_Transform3_try_from (p : Prim) (b : Build) (forward : Matrix4x4 S) :
    Src.assoc S p b (i!"Transform3") (i!"try_from") [rep forward] =
      .ok (rep (Transform3.tryFrom forward)) .unit := by
  have h : Src.assoc S p b (i!"Transform3") (i!"try_from") [rep forward] =
      bif forward.detOf forward.adjugate != Scalar.zero then .ok (rep (.ok (Transform3.new forward (forward.adjugate / forward.detOf forward.adjugate)) : Except NonInvertibleMatrixError (Transform3 S))) .unit
      else .ok (rep (.error .mk : Except NonInvertibleMatrixError (Transform3 S))) .unit := by
    cases p <;> cases b <;> kernel_rfl
  rw [h]
  unfold Transform3.tryFrom Matrix4x4.inverse
  cases hc : (forward.detOf forward.adjugate != Scalar.zero) <;> simp only [hc, cond_true, cond_false, ↓reduceIte, Bool.false_eq_true] <;> rfl

theorem C81_Transform3_look_at (p : Prim) (b : Build) (origin target : Point3 S) (up : Vector3 S) :
    Src.assoc S p b (i!"Transform3") (i!"look_at") [rep origin, rep target, rep up] =
      .ok (rep (Transform3.lookAt origin target up)) .unit := by
  have h : Src.assoc S p b (i!"Transform3") (i!"look_at") [rep origin, rep target, rep up] =
      bif (Matrix4x4.inverseLookAt origin target up).detOf (Matrix4x4.inverseLookAt origin target up).adjugate != Scalar.zero then .ok (rep (.ok (Transform3.new ((Matrix4x4.inverseLookAt origin target up).adjugate / (Matrix4x4.inverseLookAt origin target up).detOf (Matrix4x4.inverseLookAt origin target up).adjugate) (Matrix4x4.inverseLookAt origin target up)) : Except NonInvertibleMatrixError (Transform3 S))) .unit
      else .ok (rep (.error .mk : Except NonInvertibleMatrixError (Transform3 S))) .unit := by
    cases p <;> cases b <;> kernel_rfl
  rw [h]
  unfold Transform3.lookAt Matrix4x4.inverse
  cases hc : ((Matrix4x4.inverseLookAt origin target up).detOf (Matrix4x4.inverseLookAt origin target up).adjugate != Scalar.zero) <;> simp only [hc, cond_true, cond_false, ↓reduceIte, Bool.false_eq_true] <;> rfl

/-- `linear_index`. -/
theorem C81_Matrix4x4_linear_index (p : Prim) (b : Build) (row col : UInt32) :
    Src.assoc S p b (i!"Matrix4x4") (i!"linear_index") [rep row, rep col] =
      outOf (Matrix4x4.linearIndex b row col) .int (fun _ => .unit) := by
  have h : Src.assoc S p b (i!"Matrix4x4") (i!"linear_index") [rep row, rep col] =
      linearOut b 4 row.toNat col.toNat (fun n => .ok (.int n) .unit) := by
    cases p <;> cases b <;> kernel_rfl
  refine h.trans ((linearOut_eq b 4 row col (by decide) _).trans ?_)
  unfold Matrix4x4.linearIndex outOf
  by_cases h1 : b = .debug ∧ ¬ row < 4
  · rw [if_pos h1, if_pos h1]
  by_cases h2 : b = .debug ∧ ¬ col < 4
  · rw [if_neg h1, if_neg h1, if_pos h2, if_pos h2]
  · rw [if_neg h1, if_neg h1, if_neg h2, if_neg h2]

theorem C81_Matrix4x4_get (p : Prim) (b : Build) (self : Matrix4x4 S) (row col : UInt32) :
    Src.method S p b (i!"get") (rep self) [rep row, rep col] =
      outOf (self.get b row col) .sc (fun _ => rep self) := by
  have h : Src.method S p b (i!"get") (rep self) [rep row, rep col] =
      linearOut b 4 row.toNat col.toNat (fun n => match (rep self.m : Val S).list[n]? with
        | some v => .ok v (rep self)
        | none => .panic .indexOutOfBounds) := by
    cases p <;> cases b <;> kernel_rfl
  refine h.trans ((linearOut_eq b 4 row col (by decide) _).trans ?_)
  rw [elems_get self.m _ (list16 self.m)]
  unfold Matrix4x4.get Matrix4x4.linearIndex outOf
  by_cases h1 : b = .debug ∧ ¬ row < 4
  · rw [if_pos h1, if_pos h1]; rfl
  by_cases h2 : b = .debug ∧ ¬ col < 4
  · rw [if_neg h1, if_neg h1, if_pos h2, if_pos h2]; rfl
  by_cases h3 : (row * 4 + col).toNat < 16
  · simp only [h1, h2, h3, ↓reduceIte, ↓reduceDIte, bind, Except.bind]
  · simp only [h1, h2, h3, ↓reduceIte, ↓reduceDIte, bind, Except.bind]

theorem C81_Matrix4x4_set (p : Prim) (b : Build) (self : Matrix4x4 S) (row col : UInt32) (value : S) :
    Src.method S p b (i!"set") (rep self) [rep row, rep col, .sc value] =
      outOf (self.set b row col value) (fun _ => .unit) rep := by
  have h : Src.method S p b (i!"set") (rep self) [rep row, rep col, .sc value] =
      linearOut b 4 row.toNat col.toNat (fun n => match (rep self : Val S).read [.field (i!"m"), .elem n] with
        | some _ => match (rep self : Val S).modify (fun _ => some (.sc value)) [.field (i!"m"), .elem n] with
          | some w => .ok .unit w
          | none => .stuck
        | none => .panic .indexOutOfBounds) := by
    cases p <;> cases b <;> kernel_rfl
  refine h.trans ((linearOut_eq b 4 row col (by decide) _).trans ?_)
  have e : (rep self : Val S) = .obj (i!"Matrix4x4") [(i!"m", .arr (self.m.toList.map .sc))] := by rw [← rep16]; rfl
  rw [e, read_elem, modify_elem _ _ _ (fun _ => value) _ (fun _ => rfl)]
  unfold Matrix4x4.set Matrix4x4.linearIndex outOf
  by_cases h1 : b = .debug ∧ ¬ row < 4
  · rw [if_pos h1, if_pos h1]; rfl
  by_cases h2 : b = .debug ∧ ¬ col < 4
  · rw [if_neg h1, if_neg h1, if_pos h2, if_pos h2]; rfl
  by_cases h3 : (row * 4 + col).toNat < 16
  · simp only [h1, h2, h3, ↓reduceIte, ↓reduceDIte, bind, Except.bind]; rw [← rep16]; rfl
  · simp only [h1, h2, h3, ↓reduceIte, ↓reduceDIte, bind, Except.bind]

/-- `get_mut` panics when `getMut` does; otherwise it returns a place such that updating it with any `f` is
`getMut`. -/
theorem C81_Matrix4x4_get_mut (p : Prim) (b : Build) (self : Matrix4x4 S) (row col : UInt32) :
    (∃ e, Src.method S p b (i!"get_mut") (rep self) [rep row, rep col] = .panic e ∧ ∀ f : S → S, self.getMut b row col f = .error e) ∨
    ∃ place, Src.method S p b (i!"get_mut") (rep self) [rep row, rep col] = .ok (.place (i!"self") place) (rep self) ∧
      ∀ f : S → S, ∃ m, self.getMut b row col f = .ok m ∧
        (rep self : Val S).modify (scalarUpdate f) place = some (rep m) := by
  have h : Src.method S p b (i!"get_mut") (rep self) [rep row, rep col] =
      linearOut b 4 row.toNat col.toNat (fun n => match (rep self : Val S).read [.field (i!"m"), .elem n] with
        | some _ => .ok (.place (i!"self") [.field (i!"m"), .elem n]) (rep self)
        | none => .panic .indexOutOfBounds) := by
    cases p <;> cases b <;> kernel_rfl
  have h := h.trans (linearOut_eq b 4 row col (by decide) _)
  have e : (rep self : Val S) = .obj (i!"Matrix4x4") [(i!"m", .arr (self.m.toList.map .sc))] := by rw [← rep16]; rfl
  have rd := read_elem (i!"Matrix4x4") self.m (row * 4 + col).toNat
  rw [← e] at rd
  rw [rd] at h
  rw [h]
  unfold Matrix4x4.getMut Matrix4x4.linearIndex
  by_cases h1 : b = .debug ∧ ¬ row < 4
  · left; refine ⟨.debugAssert, by rw [if_pos h1], fun f => by rw [if_pos h1]; rfl⟩
  by_cases h2 : b = .debug ∧ ¬ col < 4
  · left; refine ⟨.debugAssert, by rw [if_neg h1, if_pos h2], fun f => by rw [if_neg h1, if_pos h2]; rfl⟩
  by_cases h3 : (row * 4 + col).toNat < 16
  · right
    refine ⟨[.field (i!"m"), .elem (row * 4 + col).toNat], by rw [if_neg h1, if_neg h2, dif_pos h3], fun f => ?_⟩
    refine ⟨⟨self.m.set _ (f self.m[(row * 4 + col).toNat]) h3⟩,
      by rw [if_neg h1, if_neg h2]; simp only [bind, Except.bind, h3, ↓reduceDIte], ?_⟩
    rw [e, modify_elem _ _ _ f _ (fun _ => rfl), dif_pos h3]
    rw [← rep16]; rfl
  · left
    refine ⟨.indexOutOfBounds, by rw [if_neg h1, if_neg h2, dif_neg h3], fun f => ?_⟩
    rw [if_neg h1, if_neg h2]; simp only [bind, Except.bind, h3, ↓reduceDIte]

end VecMath.Rust

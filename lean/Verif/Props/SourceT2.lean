import Verif.Rust.Access
/-! # The source text computes what the model says: 2D transforms

Generated by `tools/gen/refine.py`. `Src.method S p b name self args` is the outcome of evaluating the call
`self.name(args)` on the syntax tree of the source text (`Rust/Source.lean`), with `p` the primitive type and `b` the
build profile; `rep` is the representation of a value of the model. An outcome `.ok v s` means that the call returns
`v` and leaves its receiver as `s`: it neither panics nor runs forever. -/

namespace VecMath.Rust
open VecMath Scalar
variable {S : Type} [Scalar S]

theorem C81_Matrix3x3_new (p : Prim) (b : Build) (m : Vector S 9) :
    Src.assoc S p b (i!"Matrix3x3") (i!"new") [rep m] =
      .ok (rep (Matrix3x3.new m)) (.unit) := by
  cases p <;> kernel_rfl

theorem C81_Matrix3x3_identity (p : Prim) (b : Build)  :
    Src.assoc S p b (i!"Matrix3x3") (i!"identity") [] =
      .ok (rep (Matrix3x3.identity  : Matrix3x3 S)) (.unit) := by
  cases p <;> kernel_rfl

theorem C81_Matrix3x3_translate (p : Prim) (b : Build) (v : Vector2 S) :
    Src.assoc S p b (i!"Matrix3x3") (i!"translate") [rep v] =
      .ok (rep (Matrix3x3.translate v : Matrix3x3 S)) (.unit) := by
  cases p <;> kernel_rfl

theorem C81_Matrix3x3_scale (p : Prim) (b : Build) (sx sy : S) :
    Src.assoc S p b (i!"Matrix3x3") (i!"scale") [.sc sx, .sc sy] =
      .ok (rep (Matrix3x3.scale sx sy : Matrix3x3 S)) (.unit) := by
  cases p <;> kernel_rfl

theorem C81_Matrix3x3_scale_uniform (p : Prim) (b : Build) (s : S) :
    Src.assoc S p b (i!"Matrix3x3") (i!"scale_uniform") [.sc s] =
      .ok (rep (Matrix3x3.scaleUniform s : Matrix3x3 S)) (.unit) := by
  cases p <;> kernel_rfl

theorem C81_Matrix3x3_rotate (p : Prim) (b : Build) (angle : S) :
    Src.assoc S p b (i!"Matrix3x3") (i!"rotate") [.sc angle] =
      .ok (rep (Matrix3x3.rotate angle : Matrix3x3 S)) (.unit) := by
  cases p <;> kernel_rfl

theorem C81_Transform2_identity (p : Prim) (b : Build)  :
    Src.assoc S p b (i!"Transform2") (i!"identity") [] =
      .ok (rep (Transform2.identity  : Transform2 S)) (.unit) := by
  cases p <;> kernel_rfl

theorem C81_Transform2_translate (p : Prim) (b : Build) (v : Vector2 S) :
    Src.assoc S p b (i!"Transform2") (i!"translate") [rep v] =
      .ok (rep (Transform2.translate v : Transform2 S)) (.unit) := by
  cases p <;> kernel_rfl

theorem C81_Transform2_scale (p : Prim) (b : Build) (sx sy : S) :
    Src.assoc S p b (i!"Transform2") (i!"scale") [.sc sx, .sc sy] =
      .ok (rep (Transform2.scale sx sy : Transform2 S)) (.unit) := by
  cases p <;> kernel_rfl

theorem C81_Transform2_scale_uniform (p : Prim) (b : Build) (s : S) :
    Src.assoc S p b (i!"Transform2") (i!"scale_uniform") [.sc s] =
      .ok (rep (Transform2.scaleUniform s : Transform2 S)) (.unit) := by
  cases p <;> kernel_rfl

theorem C81_Transform2_rotate (p : Prim) (b : Build) (angle : S) :
    Src.assoc S p b (i!"Transform2") (i!"rotate") [.sc angle] =
      .ok (rep (Transform2.rotate angle : Transform2 S)) (.unit) := by
  cases p <;> kernel_rfl

theorem C81_Matrix3x3_transpose (p : Prim) (b : Build) (self : Matrix3x3 S) :
    Src.method S p b (i!"transpose") (rep self) [] =
      .ok (rep self.transpose) (rep self) := by
  cases p <;> kernel_rfl

theorem C81_Matrix3x3_mul (p : Prim) (b : Build) (self : Matrix3x3 S) (s : S) :
    Src.method S p b (i!"mul") (rep self) [.sc s] =
      .ok (rep (self * s)) (rep self) := by
  cases p <;> kernel_rfl

theorem C81_Matrix3x3_mul_assign (p : Prim) (b : Build) (self : Matrix3x3 S) (s : S) :
    Src.method S p b (i!"mul_assign") (rep self) [.sc s] =
      .ok .unit (rep (self.mulAssign s)) := by
  have h : Src.method S p b (i!"mul_assign") (rep self) [.sc s] =
      .ok .unit (.obj (i!"Matrix3x3") [(i!"m", .arr [.sc (self.m[0] * s), .sc (self.m[1] * s), .sc (self.m[2] * s), .sc (self.m[3] * s), .sc (self.m[4] * s), .sc (self.m[5] * s), .sc (self.m[6] * s), .sc (self.m[7] * s), .sc (self.m[8] * s)])]) := by
    cases p <;> kernel_rfl
  rw [h]
  simp only [rep, Matrix3x3.mulAssign, Vector.getElem_map]

theorem C81_Matrix3x3_div (p : Prim) (b : Build) (self : Matrix3x3 S) (s : S) :
    Src.method S p b (i!"div") (rep self) [.sc s] =
      .ok (rep (self / s)) (rep self) := by
  cases p <;> kernel_rfl

theorem C81_Matrix3x3_div_assign (p : Prim) (b : Build) (self : Matrix3x3 S) (s : S) :
    Src.method S p b (i!"div_assign") (rep self) [.sc s] =
      .ok .unit (rep (self.divAssign s)) := by
  have h : Src.method S p b (i!"div_assign") (rep self) [.sc s] =
      .ok .unit (.obj (i!"Matrix3x3") [(i!"m", .arr [.sc (self.m[0] / s), .sc (self.m[1] / s), .sc (self.m[2] / s), .sc (self.m[3] / s), .sc (self.m[4] / s), .sc (self.m[5] / s), .sc (self.m[6] / s), .sc (self.m[7] / s), .sc (self.m[8] / s)])]) := by
    cases p <;> kernel_rfl
  rw [h]
  simp only [rep, Matrix3x3.divAssign, Vector.getElem_map]

theorem C81_scalar_mul_Matrix3x3 (p : Prim) (b : Build) (self : S) (m : Matrix3x3 S) :
    Src.method S p b (i!"mul") (.sc self) [rep m] =
      .ok (rep (self * m)) (.sc self) := by
  cases p <;> kernel_rfl

theorem C81_Matrix3x3_mul_Point2 (p : Prim) (b : Build) (self : Matrix3x3 S) (q : Point2 S) :
    Src.method S p b (i!"mul") (rep self) [rep q] =
      .ok (rep (self * q)) (rep self) := by
  cases p <;> kernel_rfl

theorem C81_Point2_mul_Matrix3x3 (p : Prim) (b : Build) (self : Point2 S) (m : Matrix3x3 S) :
    Src.method S p b (i!"mul") (rep self) [rep m] =
      .ok (rep (self * m)) (rep self) := by
  cases p <;> kernel_rfl

theorem C81_Matrix3x3_mul_Vector2 (p : Prim) (b : Build) (self : Matrix3x3 S) (q : Vector2 S) :
    Src.method S p b (i!"mul") (rep self) [rep q] =
      .ok (rep (self * q)) (rep self) := by
  cases p <;> kernel_rfl

theorem C81_Vector2_mul_Matrix3x3 (p : Prim) (b : Build) (self : Vector2 S) (m : Matrix3x3 S) :
    Src.method S p b (i!"mul") (rep self) [rep m] =
      .ok (rep (self * m)) (rep self) := by
  cases p <;> kernel_rfl

theorem C81_Matrix3x3_mul_Matrix3x3 (p : Prim) (b : Build) (self m : Matrix3x3 S) :
    Src.method S p b (i!"mul") (rep self) [rep m] =
      .ok (rep (self * m)) (rep self) := by
  cases p <;> kernel_rfl

theorem C81_Matrix3x3_inverse (p : Prim) (b : Build) (self : Matrix3x3 S) :
    Src.method S p b (i!"inverse") (rep self) [] =
      .ok (rep self.inverse) (rep self) := by
  have h : Src.method S p b (i!"inverse") (rep self) [] =
      bif self.det != Scalar.zero then .ok (rep (.ok (Matrix3x3.new #v[ (self.m[4] * self.m[8] - self.m[5] * self.m[7]) / self.det, (self.m[2] * self.m[7] - self.m[1] * self.m[8]) / self.det, (self.m[1] * self.m[5] - self.m[2] * self.m[4]) / self.det, (self.m[5] * self.m[6] - self.m[3] * self.m[8]) / self.det, (self.m[0] * self.m[8] - self.m[2] * self.m[6]) / self.det, (self.m[2] * self.m[3] - self.m[0] * self.m[5]) / self.det, (self.m[3] * self.m[7] - self.m[4] * self.m[6]) / self.det, (self.m[1] * self.m[6] - self.m[0] * self.m[7]) / self.det, (self.m[0] * self.m[4] - self.m[1] * self.m[3]) / self.det]) : Except NonInvertibleMatrixError (Matrix3x3 S))) (rep self)
      else .ok (rep (.error .mk : Except NonInvertibleMatrixError (Matrix3x3 S))) (rep self) := by
    cases p <;> cases b <;> kernel_rfl
  have k : ∀ c : Bool, (bif c then .ok (rep (.ok (Matrix3x3.new #v[ (self.m[4] * self.m[8] - self.m[5] * self.m[7]) / self.det, (self.m[2] * self.m[7] - self.m[1] * self.m[8]) / self.det, (self.m[1] * self.m[5] - self.m[2] * self.m[4]) / self.det, (self.m[5] * self.m[6] - self.m[3] * self.m[8]) / self.det, (self.m[0] * self.m[8] - self.m[2] * self.m[6]) / self.det, (self.m[2] * self.m[3] - self.m[0] * self.m[5]) / self.det, (self.m[3] * self.m[7] - self.m[4] * self.m[6]) / self.det, (self.m[1] * self.m[6] - self.m[0] * self.m[7]) / self.det, (self.m[0] * self.m[4] - self.m[1] * self.m[3]) / self.det]) : Except NonInvertibleMatrixError (Matrix3x3 S))) (rep self)
      else .ok (rep (.error .mk : Except NonInvertibleMatrixError (Matrix3x3 S))) (rep self)) =
      (.ok (rep (if c then .ok (Matrix3x3.new #v[ (self.m[4] * self.m[8] - self.m[5] * self.m[7]) / self.det, (self.m[2] * self.m[7] - self.m[1] * self.m[8]) / self.det, (self.m[1] * self.m[5] - self.m[2] * self.m[4]) / self.det, (self.m[5] * self.m[6] - self.m[3] * self.m[8]) / self.det, (self.m[0] * self.m[8] - self.m[2] * self.m[6]) / self.det, (self.m[2] * self.m[3] - self.m[0] * self.m[5]) / self.det, (self.m[3] * self.m[7] - self.m[4] * self.m[6]) / self.det, (self.m[1] * self.m[6] - self.m[0] * self.m[7]) / self.det, (self.m[0] * self.m[4] - self.m[1] * self.m[3]) / self.det]) else .error .mk : Except NonInvertibleMatrixError (Matrix3x3 S))) (rep self) : Out S) := by
    intro c; cases c <;> rfl
  exact h.trans (k _)

theorem C81_Transform2_new (p : Prim) (b : Build) (forward inverse : Matrix3x3 S) :
    Src.assoc S p b (i!"Transform2") (i!"new") [rep forward, rep inverse] =
      .ok (rep (Transform2.new forward inverse)) (.unit) := by
  cases p <;> kernel_rfl

theorem C81_Transform2_and_then (p : Prim) (b : Build) (self next : Transform2 S) :
    Src.method S p b (i!"and_then") (rep self) [rep next] =
      .ok (rep (self.andThen next)) (rep self) := by
  cases p <;> kernel_rfl

theorem C81_Transform2_inverse (p : Prim) (b : Build) (self : Transform2 S) :
    Src.method S p b (i!"inverse") (rep self) [] =
      .ok (rep self.inv) (rep self) := by
  cases p <;> kernel_rfl

theorem C81_Transform2_transform_Point2 (p : Prim) (b : Build) (self : Transform2 S) (value : Point2 S) :
    Src.method S p b (i!"transform") (rep self) [rep value] =
      .ok (rep (Transform.transform self value)) (rep self) := by
  cases p <;> kernel_rfl

theorem C81_Transform2_transform_Vector2 (p : Prim) (b : Build) (self : Transform2 S) (value : Vector2 S) :
    Src.method S p b (i!"transform") (rep self) [rep value] =
      .ok (rep (Transform.transform self value)) (rep self) := by
  cases p <;> kernel_rfl

theorem C81_Transform2_transform_Ray2 (p : Prim) (b : Build) (self : Transform2 S) (value : Ray2 S) :
    Src.method S p b (i!"transform") (rep self) [rep value] =
      .ok (rep (Transform.transform self value)) (rep self) := by
  cases p <;> kernel_rfl

theorem C81_Transform2_transform_BoundingBox2 (p : Prim) (b : Build) (self : Transform2 S) (value : BoundingBox2 S) :
    Src.method S p b (i!"transform") (rep self) [rep value] =
      .ok (rep (Transform.transform self value)) (rep self) := by
  cases p <;> kernel_rfl

theorem C81_Transform2_try_from (p : Prim) (b : Build) (forward : Matrix3x3 S) :
    Src.assoc S p b (i!"Transform2") (i!"try_from") [rep forward] =
      .ok (rep (Transform2.tryFrom forward)) .unit := by
  have h : Src.assoc S p b (i!"Transform2") (i!"try_from") [rep forward] =
      bif forward.det != Scalar.zero then .ok (rep (.ok (Transform2.new forward (Matrix3x3.new #v[ (forward.m[4] * forward.m[8] - forward.m[5] * forward.m[7]) / forward.det, (forward.m[2] * forward.m[7] - forward.m[1] * forward.m[8]) / forward.det, (forward.m[1] * forward.m[5] - forward.m[2] * forward.m[4]) / forward.det, (forward.m[5] * forward.m[6] - forward.m[3] * forward.m[8]) / forward.det, (forward.m[0] * forward.m[8] - forward.m[2] * forward.m[6]) / forward.det, (forward.m[2] * forward.m[3] - forward.m[0] * forward.m[5]) / forward.det, (forward.m[3] * forward.m[7] - forward.m[4] * forward.m[6]) / forward.det, (forward.m[1] * forward.m[6] - forward.m[0] * forward.m[7]) / forward.det, (forward.m[0] * forward.m[4] - forward.m[1] * forward.m[3]) / forward.det])) : Except NonInvertibleMatrixError (Transform2 S))) .unit
      else .ok (rep (.error .mk : Except NonInvertibleMatrixError (Transform2 S))) .unit := by
    cases p <;> cases b <;> kernel_rfl
  rw [h]
  unfold Transform2.tryFrom Matrix3x3.inverse
  cases hc : (forward.det != Scalar.zero) <;> simp only [hc, cond_true, cond_false, ↓reduceIte, Bool.false_eq_true] <;> rfl

/-- `linear_index`. -/
theorem C81_Matrix3x3_linear_index (p : Prim) (b : Build) (row col : UInt32) :
    Src.assoc S p b (i!"Matrix3x3") (i!"linear_index") [rep row, rep col] =
      outOf (Matrix3x3.linearIndex b row col) .int (fun _ => .unit) := by
  have h : Src.assoc S p b (i!"Matrix3x3") (i!"linear_index") [rep row, rep col] =
      linearOut b 3 row.toNat col.toNat (fun n => .ok (.int n) .unit) := by
    cases p <;> cases b <;> kernel_rfl
  refine h.trans ((linearOut_eq b 3 row col (by decide) _).trans ?_)
  unfold Matrix3x3.linearIndex outOf
  by_cases h1 : b = .debug ∧ ¬ row < 3
  · rw [if_pos h1, if_pos h1]
  by_cases h2 : b = .debug ∧ ¬ col < 3
  · rw [if_neg h1, if_neg h1, if_pos h2, if_pos h2]
  · rw [if_neg h1, if_neg h1, if_neg h2, if_neg h2]

theorem C81_Matrix3x3_get (p : Prim) (b : Build) (self : Matrix3x3 S) (row col : UInt32) :
    Src.method S p b (i!"get") (rep self) [rep row, rep col] =
      outOf (self.get b row col) .sc (fun _ => rep self) := by
  have h : Src.method S p b (i!"get") (rep self) [rep row, rep col] =
      linearOut b 3 row.toNat col.toNat (fun n => match (rep self.m : Val S).list[n]? with
        | some v => .ok v (rep self)
        | none => .panic .indexOutOfBounds) := by
    cases p <;> cases b <;> kernel_rfl
  refine h.trans ((linearOut_eq b 3 row col (by decide) _).trans ?_)
  rw [elems_get self.m _ (list9 self.m)]
  unfold Matrix3x3.get Matrix3x3.linearIndex outOf
  by_cases h1 : b = .debug ∧ ¬ row < 3
  · rw [if_pos h1, if_pos h1]; rfl
  by_cases h2 : b = .debug ∧ ¬ col < 3
  · rw [if_neg h1, if_neg h1, if_pos h2, if_pos h2]; rfl
  by_cases h3 : (row * 3 + col).toNat < 9
  · simp only [h1, h2, h3, ↓reduceIte, ↓reduceDIte, bind, Except.bind]
  · simp only [h1, h2, h3, ↓reduceIte, ↓reduceDIte, bind, Except.bind]

theorem C81_Matrix3x3_set (p : Prim) (b : Build) (self : Matrix3x3 S) (row col : UInt32) (value : S) :
    Src.method S p b (i!"set") (rep self) [rep row, rep col, .sc value] =
      outOf (self.set b row col value) (fun _ => .unit) rep := by
  have h : Src.method S p b (i!"set") (rep self) [rep row, rep col, .sc value] =
      linearOut b 3 row.toNat col.toNat (fun n => match (rep self : Val S).read [.field (i!"m"), .elem n] with
        | some _ => match (rep self : Val S).modify (fun _ => some (.sc value)) [.field (i!"m"), .elem n] with
          | some w => .ok .unit w
          | none => .stuck
        | none => .panic .indexOutOfBounds) := by
    cases p <;> cases b <;> kernel_rfl
  refine h.trans ((linearOut_eq b 3 row col (by decide) _).trans ?_)
  have e : (rep self : Val S) = .obj (i!"Matrix3x3") [(i!"m", .arr (self.m.toList.map .sc))] := by rw [← rep9]; rfl
  rw [e, read_elem, modify_elem _ _ _ (fun _ => value) _ (fun _ => rfl)]
  unfold Matrix3x3.set Matrix3x3.linearIndex outOf
  by_cases h1 : b = .debug ∧ ¬ row < 3
  · rw [if_pos h1, if_pos h1]; rfl
  by_cases h2 : b = .debug ∧ ¬ col < 3
  · rw [if_neg h1, if_neg h1, if_pos h2, if_pos h2]; rfl
  by_cases h3 : (row * 3 + col).toNat < 9
  · simp only [h1, h2, h3, ↓reduceIte, ↓reduceDIte, bind, Except.bind]; rw [← rep9]; rfl
  · simp only [h1, h2, h3, ↓reduceIte, ↓reduceDIte, bind, Except.bind]

/-- `get_mut` panics when `getMut` does; otherwise it returns a place such that updating it with any `f` is
`getMut`. -/
theorem C81_Matrix3x3_get_mut (p : Prim) (b : Build) (self : Matrix3x3 S) (row col : UInt32) :
    (∃ e, Src.method S p b (i!"get_mut") (rep self) [rep row, rep col] = .panic e ∧ ∀ f : S → S, self.getMut b row col f = .error e) ∨
    ∃ place, Src.method S p b (i!"get_mut") (rep self) [rep row, rep col] = .ok (.place (i!"self") place) (rep self) ∧
      ∀ f : S → S, ∃ m, self.getMut b row col f = .ok m ∧
        (rep self : Val S).modify (scalarUpdate f) place = some (rep m) := by
  have h : Src.method S p b (i!"get_mut") (rep self) [rep row, rep col] =
      linearOut b 3 row.toNat col.toNat (fun n => match (rep self : Val S).read [.field (i!"m"), .elem n] with
        | some _ => .ok (.place (i!"self") [.field (i!"m"), .elem n]) (rep self)
        | none => .panic .indexOutOfBounds) := by
    cases p <;> cases b <;> kernel_rfl
  have h := h.trans (linearOut_eq b 3 row col (by decide) _)
  have e : (rep self : Val S) = .obj (i!"Matrix3x3") [(i!"m", .arr (self.m.toList.map .sc))] := by rw [← rep9]; rfl
  have rd := read_elem (i!"Matrix3x3") self.m (row * 3 + col).toNat
  rw [← e] at rd
  rw [rd] at h
  rw [h]
  unfold Matrix3x3.getMut Matrix3x3.linearIndex
  by_cases h1 : b = .debug ∧ ¬ row < 3
  · left; refine ⟨.debugAssert, by rw [if_pos h1], fun f => by rw [if_pos h1]; rfl⟩
  by_cases h2 : b = .debug ∧ ¬ col < 3
  · left; refine ⟨.debugAssert, by rw [if_neg h1, if_pos h2], fun f => by rw [if_neg h1, if_pos h2]; rfl⟩
  by_cases h3 : (row * 3 + col).toNat < 9
  · right
    refine ⟨[.field (i!"m"), .elem (row * 3 + col).toNat], by rw [if_neg h1, if_neg h2, dif_pos h3], fun f => ?_⟩
    refine ⟨⟨self.m.set _ (f self.m[(row * 3 + col).toNat]) h3⟩,
      by rw [if_neg h1, if_neg h2]; simp only [bind, Except.bind, h3, ↓reduceDIte], ?_⟩
    rw [e, modify_elem _ _ _ f _ (fun _ => rfl), dif_pos h3]
    rw [← rep9]; rfl
  · left
    refine ⟨.indexOutOfBounds, by rw [if_neg h1, if_neg h2, dif_neg h3], fun f => ?_⟩
    rw [if_neg h1, if_neg h2]; simp only [bind, Except.bind, h3, ↓reduceDIte]

end VecMath.Rust

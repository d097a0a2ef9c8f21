import Verif.Lemmas.Num
/-!
# Entries of matrices

Each lemma unfolds one entry of a model expression; all hold by definition.
(Generated by tools/genmat.py.)
-/

set_option linter.unusedSectionVars false

namespace VecMath
open Scalar
variable {S : Type} [Scalar S]

namespace Matrix3x3
theorem muls (a : Matrix3x3 S) (s : S) (i : Nat) (h : i < 9) : (a * s).m[i] = a.m[i] * s := by
  show (Vector.ofFn fun i => a.m[i] * s)[i] = _
  rw [Vector.getElem_ofFn]; rfl
theorem divs (a : Matrix3x3 S) (s : S) (i : Nat) (h : i < 9) : (a / s).m[i] = a.m[i] / s := by
  show (Vector.ofFn fun i => a.m[i] / s)[i] = _
  rw [Vector.getElem_ofFn]; rfl
@[simp] theorem mm_0 (a b : Matrix3x3 S) : (a * b).m[0] = a.m[0] * b.m[0] + a.m[1] * b.m[3] + a.m[2] * b.m[6] := rfl
@[simp] theorem transpose_0 (a : Matrix3x3 S) : a.transpose.m[0] = a.m[0] := rfl
@[simp] theorem identity_0  : (Matrix3x3.identity : Matrix3x3 S).m[0] = one := rfl
@[simp] theorem translate_0 (v : Vector2 S) : (Matrix3x3.translate v).m[0] = one := rfl
@[simp] theorem scale_0 (sx sy : S) : (Matrix3x3.scale sx sy).m[0] = sx := rfl
@[simp] theorem scaleUniform_0 (s : S) : (Matrix3x3.scaleUniform s).m[0] = s := rfl
@[simp] theorem muls_0 (a : Matrix3x3 S) (s : S) : (a * s).m[0] = a.m[0] * s := muls a s 0 (by omega)
@[simp] theorem divs_0 (a : Matrix3x3 S) (s : S) : (a / s).m[0] = a.m[0] / s := divs a s 0 (by omega)
@[simp] theorem new_0 (a : Vector S 9) : (Matrix3x3.new a).m[0] = a[0] := rfl
@[simp] theorem mm_1 (a b : Matrix3x3 S) : (a * b).m[1] = a.m[0] * b.m[1] + a.m[1] * b.m[4] + a.m[2] * b.m[7] := rfl
@[simp] theorem transpose_1 (a : Matrix3x3 S) : a.transpose.m[1] = a.m[3] := rfl
@[simp] theorem identity_1  : (Matrix3x3.identity : Matrix3x3 S).m[1] = zero := rfl
@[simp] theorem translate_1 (v : Vector2 S) : (Matrix3x3.translate v).m[1] = zero := rfl
@[simp] theorem scale_1 (sx sy : S) : (Matrix3x3.scale sx sy).m[1] = zero := rfl
@[simp] theorem scaleUniform_1 (s : S) : (Matrix3x3.scaleUniform s).m[1] = zero := rfl
@[simp] theorem muls_1 (a : Matrix3x3 S) (s : S) : (a * s).m[1] = a.m[1] * s := muls a s 1 (by omega)
@[simp] theorem divs_1 (a : Matrix3x3 S) (s : S) : (a / s).m[1] = a.m[1] / s := divs a s 1 (by omega)
@[simp] theorem new_1 (a : Vector S 9) : (Matrix3x3.new a).m[1] = a[1] := rfl
@[simp] theorem mm_2 (a b : Matrix3x3 S) : (a * b).m[2] = a.m[0] * b.m[2] + a.m[1] * b.m[5] + a.m[2] * b.m[8] := rfl
@[simp] theorem transpose_2 (a : Matrix3x3 S) : a.transpose.m[2] = a.m[6] := rfl
@[simp] theorem identity_2  : (Matrix3x3.identity : Matrix3x3 S).m[2] = zero := rfl
@[simp] theorem translate_2 (v : Vector2 S) : (Matrix3x3.translate v).m[2] = v.x := rfl
@[simp] theorem scale_2 (sx sy : S) : (Matrix3x3.scale sx sy).m[2] = zero := rfl
@[simp] theorem scaleUniform_2 (s : S) : (Matrix3x3.scaleUniform s).m[2] = zero := rfl
@[simp] theorem muls_2 (a : Matrix3x3 S) (s : S) : (a * s).m[2] = a.m[2] * s := muls a s 2 (by omega)
@[simp] theorem divs_2 (a : Matrix3x3 S) (s : S) : (a / s).m[2] = a.m[2] / s := divs a s 2 (by omega)
@[simp] theorem new_2 (a : Vector S 9) : (Matrix3x3.new a).m[2] = a[2] := rfl
@[simp] theorem mm_3 (a b : Matrix3x3 S) : (a * b).m[3] = a.m[3] * b.m[0] + a.m[4] * b.m[3] + a.m[5] * b.m[6] := rfl
@[simp] theorem transpose_3 (a : Matrix3x3 S) : a.transpose.m[3] = a.m[1] := rfl
@[simp] theorem identity_3  : (Matrix3x3.identity : Matrix3x3 S).m[3] = zero := rfl
@[simp] theorem translate_3 (v : Vector2 S) : (Matrix3x3.translate v).m[3] = zero := rfl
@[simp] theorem scale_3 (sx sy : S) : (Matrix3x3.scale sx sy).m[3] = zero := rfl
@[simp] theorem scaleUniform_3 (s : S) : (Matrix3x3.scaleUniform s).m[3] = zero := rfl
@[simp] theorem muls_3 (a : Matrix3x3 S) (s : S) : (a * s).m[3] = a.m[3] * s := muls a s 3 (by omega)
@[simp] theorem divs_3 (a : Matrix3x3 S) (s : S) : (a / s).m[3] = a.m[3] / s := divs a s 3 (by omega)
@[simp] theorem new_3 (a : Vector S 9) : (Matrix3x3.new a).m[3] = a[3] := rfl
@[simp] theorem mm_4 (a b : Matrix3x3 S) : (a * b).m[4] = a.m[3] * b.m[1] + a.m[4] * b.m[4] + a.m[5] * b.m[7] := rfl
@[simp] theorem transpose_4 (a : Matrix3x3 S) : a.transpose.m[4] = a.m[4] := rfl
@[simp] theorem identity_4  : (Matrix3x3.identity : Matrix3x3 S).m[4] = one := rfl
@[simp] theorem translate_4 (v : Vector2 S) : (Matrix3x3.translate v).m[4] = one := rfl
@[simp] theorem scale_4 (sx sy : S) : (Matrix3x3.scale sx sy).m[4] = sy := rfl
@[simp] theorem scaleUniform_4 (s : S) : (Matrix3x3.scaleUniform s).m[4] = s := rfl
@[simp] theorem muls_4 (a : Matrix3x3 S) (s : S) : (a * s).m[4] = a.m[4] * s := muls a s 4 (by omega)
@[simp] theorem divs_4 (a : Matrix3x3 S) (s : S) : (a / s).m[4] = a.m[4] / s := divs a s 4 (by omega)
@[simp] theorem new_4 (a : Vector S 9) : (Matrix3x3.new a).m[4] = a[4] := rfl
@[simp] theorem mm_5 (a b : Matrix3x3 S) : (a * b).m[5] = a.m[3] * b.m[2] + a.m[4] * b.m[5] + a.m[5] * b.m[8] := rfl
@[simp] theorem transpose_5 (a : Matrix3x3 S) : a.transpose.m[5] = a.m[7] := rfl
@[simp] theorem identity_5  : (Matrix3x3.identity : Matrix3x3 S).m[5] = zero := rfl
@[simp] theorem translate_5 (v : Vector2 S) : (Matrix3x3.translate v).m[5] = v.y := rfl
@[simp] theorem scale_5 (sx sy : S) : (Matrix3x3.scale sx sy).m[5] = zero := rfl
@[simp] theorem scaleUniform_5 (s : S) : (Matrix3x3.scaleUniform s).m[5] = zero := rfl
@[simp] theorem muls_5 (a : Matrix3x3 S) (s : S) : (a * s).m[5] = a.m[5] * s := muls a s 5 (by omega)
@[simp] theorem divs_5 (a : Matrix3x3 S) (s : S) : (a / s).m[5] = a.m[5] / s := divs a s 5 (by omega)
@[simp] theorem new_5 (a : Vector S 9) : (Matrix3x3.new a).m[5] = a[5] := rfl
@[simp] theorem mm_6 (a b : Matrix3x3 S) : (a * b).m[6] = a.m[6] * b.m[0] + a.m[7] * b.m[3] + a.m[8] * b.m[6] := rfl
@[simp] theorem transpose_6 (a : Matrix3x3 S) : a.transpose.m[6] = a.m[2] := rfl
@[simp] theorem identity_6  : (Matrix3x3.identity : Matrix3x3 S).m[6] = zero := rfl
@[simp] theorem translate_6 (v : Vector2 S) : (Matrix3x3.translate v).m[6] = zero := rfl
@[simp] theorem scale_6 (sx sy : S) : (Matrix3x3.scale sx sy).m[6] = zero := rfl
@[simp] theorem scaleUniform_6 (s : S) : (Matrix3x3.scaleUniform s).m[6] = zero := rfl
@[simp] theorem muls_6 (a : Matrix3x3 S) (s : S) : (a * s).m[6] = a.m[6] * s := muls a s 6 (by omega)
@[simp] theorem divs_6 (a : Matrix3x3 S) (s : S) : (a / s).m[6] = a.m[6] / s := divs a s 6 (by omega)
@[simp] theorem new_6 (a : Vector S 9) : (Matrix3x3.new a).m[6] = a[6] := rfl
@[simp] theorem mm_7 (a b : Matrix3x3 S) : (a * b).m[7] = a.m[6] * b.m[1] + a.m[7] * b.m[4] + a.m[8] * b.m[7] := rfl
@[simp] theorem transpose_7 (a : Matrix3x3 S) : a.transpose.m[7] = a.m[5] := rfl
@[simp] theorem identity_7  : (Matrix3x3.identity : Matrix3x3 S).m[7] = zero := rfl
@[simp] theorem translate_7 (v : Vector2 S) : (Matrix3x3.translate v).m[7] = zero := rfl
@[simp] theorem scale_7 (sx sy : S) : (Matrix3x3.scale sx sy).m[7] = zero := rfl
@[simp] theorem scaleUniform_7 (s : S) : (Matrix3x3.scaleUniform s).m[7] = zero := rfl
@[simp] theorem muls_7 (a : Matrix3x3 S) (s : S) : (a * s).m[7] = a.m[7] * s := muls a s 7 (by omega)
@[simp] theorem divs_7 (a : Matrix3x3 S) (s : S) : (a / s).m[7] = a.m[7] / s := divs a s 7 (by omega)
@[simp] theorem new_7 (a : Vector S 9) : (Matrix3x3.new a).m[7] = a[7] := rfl
@[simp] theorem mm_8 (a b : Matrix3x3 S) : (a * b).m[8] = a.m[6] * b.m[2] + a.m[7] * b.m[5] + a.m[8] * b.m[8] := rfl
@[simp] theorem transpose_8 (a : Matrix3x3 S) : a.transpose.m[8] = a.m[8] := rfl
@[simp] theorem identity_8  : (Matrix3x3.identity : Matrix3x3 S).m[8] = one := rfl
@[simp] theorem translate_8 (v : Vector2 S) : (Matrix3x3.translate v).m[8] = one := rfl
@[simp] theorem scale_8 (sx sy : S) : (Matrix3x3.scale sx sy).m[8] = one := rfl
@[simp] theorem scaleUniform_8 (s : S) : (Matrix3x3.scaleUniform s).m[8] = one := rfl
@[simp] theorem muls_8 (a : Matrix3x3 S) (s : S) : (a * s).m[8] = a.m[8] * s := muls a s 8 (by omega)
@[simp] theorem divs_8 (a : Matrix3x3 S) (s : S) : (a / s).m[8] = a.m[8] / s := divs a s 8 (by omega)
@[simp] theorem new_8 (a : Vector S 9) : (Matrix3x3.new a).m[8] = a[8] := rfl
@[simp] theorem mulp_x (m : Matrix3x3 S) (p : Point2 S) : (m * p).x = (m.m[0] * p.x + m.m[1] * p.y + m.m[2]) / (m.m[6] * p.x + m.m[7] * p.y + m.m[8]) := rfl
@[simp] theorem mulv_x (m : Matrix3x3 S) (p : Vector2 S) : (m * p).x = m.m[0] * p.x + m.m[1] * p.y := rfl
@[simp] theorem pmul_x (m : Matrix3x3 S) (p : Point2 S) : (p * m).x = (p.x * m.m[0] + p.y * m.m[3] + m.m[6]) / (p.x * m.m[2] + p.y * m.m[5] + m.m[8]) := rfl
@[simp] theorem vmul_x (m : Matrix3x3 S) (p : Vector2 S) : (p * m).x = p.x * m.m[0] + p.y * m.m[3] := rfl
@[simp] theorem mulp_y (m : Matrix3x3 S) (p : Point2 S) : (m * p).y = (m.m[3] * p.x + m.m[4] * p.y + m.m[5]) / (m.m[6] * p.x + m.m[7] * p.y + m.m[8]) := rfl
@[simp] theorem mulv_y (m : Matrix3x3 S) (p : Vector2 S) : (m * p).y = m.m[3] * p.x + m.m[4] * p.y := rfl
@[simp] theorem pmul_y (m : Matrix3x3 S) (p : Point2 S) : (p * m).y = (p.x * m.m[1] + p.y * m.m[4] + m.m[7]) / (p.x * m.m[2] + p.y * m.m[5] + m.m[8]) := rfl
@[simp] theorem vmul_y (m : Matrix3x3 S) (p : Vector2 S) : (p * m).y = p.x * m.m[1] + p.y * m.m[4] := rfl
end Matrix3x3

namespace Matrix4x4
theorem muls (a : Matrix4x4 S) (s : S) (i : Nat) (h : i < 16) : (a * s).m[i] = a.m[i] * s := by
  show (Vector.ofFn fun i => a.m[i] * s)[i] = _
  rw [Vector.getElem_ofFn]; rfl
theorem divs (a : Matrix4x4 S) (s : S) (i : Nat) (h : i < 16) : (a / s).m[i] = a.m[i] / s := by
  show (Vector.ofFn fun i => a.m[i] / s)[i] = _
  rw [Vector.getElem_ofFn]; rfl
@[simp] theorem mm_0 (a b : Matrix4x4 S) : (a * b).m[0] = a.m[0] * b.m[0] + a.m[1] * b.m[4] + a.m[2] * b.m[8] + a.m[3] * b.m[12] := rfl
@[simp] theorem transpose_0 (a : Matrix4x4 S) : a.transpose.m[0] = a.m[0] := rfl
@[simp] theorem identity_0  : (Matrix4x4.identity : Matrix4x4 S).m[0] = one := rfl
@[simp] theorem translate_0 (v : Vector3 S) : (Matrix4x4.translate v).m[0] = one := rfl
@[simp] theorem scale_0 (sx sy sz : S) : (Matrix4x4.scale sx sy sz).m[0] = sx := rfl
@[simp] theorem scaleUniform_0 (s : S) : (Matrix4x4.scaleUniform s).m[0] = s := rfl
@[simp] theorem muls_0 (a : Matrix4x4 S) (s : S) : (a * s).m[0] = a.m[0] * s := muls a s 0 (by omega)
@[simp] theorem divs_0 (a : Matrix4x4 S) (s : S) : (a / s).m[0] = a.m[0] / s := divs a s 0 (by omega)
@[simp] theorem new_0 (a : Vector S 16) : (Matrix4x4.new a).m[0] = a[0] := rfl
@[simp] theorem mm_1 (a b : Matrix4x4 S) : (a * b).m[1] = a.m[0] * b.m[1] + a.m[1] * b.m[5] + a.m[2] * b.m[9] + a.m[3] * b.m[13] := rfl
@[simp] theorem transpose_1 (a : Matrix4x4 S) : a.transpose.m[1] = a.m[4] := rfl
@[simp] theorem identity_1  : (Matrix4x4.identity : Matrix4x4 S).m[1] = zero := rfl
@[simp] theorem translate_1 (v : Vector3 S) : (Matrix4x4.translate v).m[1] = zero := rfl
@[simp] theorem scale_1 (sx sy sz : S) : (Matrix4x4.scale sx sy sz).m[1] = zero := rfl
@[simp] theorem scaleUniform_1 (s : S) : (Matrix4x4.scaleUniform s).m[1] = zero := rfl
@[simp] theorem muls_1 (a : Matrix4x4 S) (s : S) : (a * s).m[1] = a.m[1] * s := muls a s 1 (by omega)
@[simp] theorem divs_1 (a : Matrix4x4 S) (s : S) : (a / s).m[1] = a.m[1] / s := divs a s 1 (by omega)
@[simp] theorem new_1 (a : Vector S 16) : (Matrix4x4.new a).m[1] = a[1] := rfl
@[simp] theorem mm_2 (a b : Matrix4x4 S) : (a * b).m[2] = a.m[0] * b.m[2] + a.m[1] * b.m[6] + a.m[2] * b.m[10] + a.m[3] * b.m[14] := rfl
@[simp] theorem transpose_2 (a : Matrix4x4 S) : a.transpose.m[2] = a.m[8] := rfl
@[simp] theorem identity_2  : (Matrix4x4.identity : Matrix4x4 S).m[2] = zero := rfl
@[simp] theorem translate_2 (v : Vector3 S) : (Matrix4x4.translate v).m[2] = zero := rfl
@[simp] theorem scale_2 (sx sy sz : S) : (Matrix4x4.scale sx sy sz).m[2] = zero := rfl
@[simp] theorem scaleUniform_2 (s : S) : (Matrix4x4.scaleUniform s).m[2] = zero := rfl
@[simp] theorem muls_2 (a : Matrix4x4 S) (s : S) : (a * s).m[2] = a.m[2] * s := muls a s 2 (by omega)
@[simp] theorem divs_2 (a : Matrix4x4 S) (s : S) : (a / s).m[2] = a.m[2] / s := divs a s 2 (by omega)
@[simp] theorem new_2 (a : Vector S 16) : (Matrix4x4.new a).m[2] = a[2] := rfl
@[simp] theorem mm_3 (a b : Matrix4x4 S) : (a * b).m[3] = a.m[0] * b.m[3] + a.m[1] * b.m[7] + a.m[2] * b.m[11] + a.m[3] * b.m[15] := rfl
@[simp] theorem transpose_3 (a : Matrix4x4 S) : a.transpose.m[3] = a.m[12] := rfl
@[simp] theorem identity_3  : (Matrix4x4.identity : Matrix4x4 S).m[3] = zero := rfl
@[simp] theorem translate_3 (v : Vector3 S) : (Matrix4x4.translate v).m[3] = v.x := rfl
@[simp] theorem scale_3 (sx sy sz : S) : (Matrix4x4.scale sx sy sz).m[3] = zero := rfl
@[simp] theorem scaleUniform_3 (s : S) : (Matrix4x4.scaleUniform s).m[3] = zero := rfl
@[simp] theorem muls_3 (a : Matrix4x4 S) (s : S) : (a * s).m[3] = a.m[3] * s := muls a s 3 (by omega)
@[simp] theorem divs_3 (a : Matrix4x4 S) (s : S) : (a / s).m[3] = a.m[3] / s := divs a s 3 (by omega)
@[simp] theorem new_3 (a : Vector S 16) : (Matrix4x4.new a).m[3] = a[3] := rfl
@[simp] theorem mm_4 (a b : Matrix4x4 S) : (a * b).m[4] = a.m[4] * b.m[0] + a.m[5] * b.m[4] + a.m[6] * b.m[8] + a.m[7] * b.m[12] := rfl
@[simp] theorem transpose_4 (a : Matrix4x4 S) : a.transpose.m[4] = a.m[1] := rfl
@[simp] theorem identity_4  : (Matrix4x4.identity : Matrix4x4 S).m[4] = zero := rfl
@[simp] theorem translate_4 (v : Vector3 S) : (Matrix4x4.translate v).m[4] = zero := rfl
@[simp] theorem scale_4 (sx sy sz : S) : (Matrix4x4.scale sx sy sz).m[4] = zero := rfl
@[simp] theorem scaleUniform_4 (s : S) : (Matrix4x4.scaleUniform s).m[4] = zero := rfl
@[simp] theorem muls_4 (a : Matrix4x4 S) (s : S) : (a * s).m[4] = a.m[4] * s := muls a s 4 (by omega)
@[simp] theorem divs_4 (a : Matrix4x4 S) (s : S) : (a / s).m[4] = a.m[4] / s := divs a s 4 (by omega)
@[simp] theorem new_4 (a : Vector S 16) : (Matrix4x4.new a).m[4] = a[4] := rfl
@[simp] theorem mm_5 (a b : Matrix4x4 S) : (a * b).m[5] = a.m[4] * b.m[1] + a.m[5] * b.m[5] + a.m[6] * b.m[9] + a.m[7] * b.m[13] := rfl
@[simp] theorem transpose_5 (a : Matrix4x4 S) : a.transpose.m[5] = a.m[5] := rfl
@[simp] theorem identity_5  : (Matrix4x4.identity : Matrix4x4 S).m[5] = one := rfl
@[simp] theorem translate_5 (v : Vector3 S) : (Matrix4x4.translate v).m[5] = one := rfl
@[simp] theorem scale_5 (sx sy sz : S) : (Matrix4x4.scale sx sy sz).m[5] = sy := rfl
@[simp] theorem scaleUniform_5 (s : S) : (Matrix4x4.scaleUniform s).m[5] = s := rfl
@[simp] theorem muls_5 (a : Matrix4x4 S) (s : S) : (a * s).m[5] = a.m[5] * s := muls a s 5 (by omega)
@[simp] theorem divs_5 (a : Matrix4x4 S) (s : S) : (a / s).m[5] = a.m[5] / s := divs a s 5 (by omega)
@[simp] theorem new_5 (a : Vector S 16) : (Matrix4x4.new a).m[5] = a[5] := rfl
@[simp] theorem mm_6 (a b : Matrix4x4 S) : (a * b).m[6] = a.m[4] * b.m[2] + a.m[5] * b.m[6] + a.m[6] * b.m[10] + a.m[7] * b.m[14] := rfl
@[simp] theorem transpose_6 (a : Matrix4x4 S) : a.transpose.m[6] = a.m[9] := rfl
@[simp] theorem identity_6  : (Matrix4x4.identity : Matrix4x4 S).m[6] = zero := rfl
@[simp] theorem translate_6 (v : Vector3 S) : (Matrix4x4.translate v).m[6] = zero := rfl
@[simp] theorem scale_6 (sx sy sz : S) : (Matrix4x4.scale sx sy sz).m[6] = zero := rfl
@[simp] theorem scaleUniform_6 (s : S) : (Matrix4x4.scaleUniform s).m[6] = zero := rfl
@[simp] theorem muls_6 (a : Matrix4x4 S) (s : S) : (a * s).m[6] = a.m[6] * s := muls a s 6 (by omega)
@[simp] theorem divs_6 (a : Matrix4x4 S) (s : S) : (a / s).m[6] = a.m[6] / s := divs a s 6 (by omega)
@[simp] theorem new_6 (a : Vector S 16) : (Matrix4x4.new a).m[6] = a[6] := rfl
@[simp] theorem mm_7 (a b : Matrix4x4 S) : (a * b).m[7] = a.m[4] * b.m[3] + a.m[5] * b.m[7] + a.m[6] * b.m[11] + a.m[7] * b.m[15] := rfl
@[simp] theorem transpose_7 (a : Matrix4x4 S) : a.transpose.m[7] = a.m[13] := rfl
@[simp] theorem identity_7  : (Matrix4x4.identity : Matrix4x4 S).m[7] = zero := rfl
@[simp] theorem translate_7 (v : Vector3 S) : (Matrix4x4.translate v).m[7] = v.y := rfl
@[simp] theorem scale_7 (sx sy sz : S) : (Matrix4x4.scale sx sy sz).m[7] = zero := rfl
@[simp] theorem scaleUniform_7 (s : S) : (Matrix4x4.scaleUniform s).m[7] = zero := rfl
@[simp] theorem muls_7 (a : Matrix4x4 S) (s : S) : (a * s).m[7] = a.m[7] * s := muls a s 7 (by omega)
@[simp] theorem divs_7 (a : Matrix4x4 S) (s : S) : (a / s).m[7] = a.m[7] / s := divs a s 7 (by omega)
@[simp] theorem new_7 (a : Vector S 16) : (Matrix4x4.new a).m[7] = a[7] := rfl
@[simp] theorem mm_8 (a b : Matrix4x4 S) : (a * b).m[8] = a.m[8] * b.m[0] + a.m[9] * b.m[4] + a.m[10] * b.m[8] + a.m[11] * b.m[12] := rfl
@[simp] theorem transpose_8 (a : Matrix4x4 S) : a.transpose.m[8] = a.m[2] := rfl
@[simp] theorem identity_8  : (Matrix4x4.identity : Matrix4x4 S).m[8] = zero := rfl
@[simp] theorem translate_8 (v : Vector3 S) : (Matrix4x4.translate v).m[8] = zero := rfl
@[simp] theorem scale_8 (sx sy sz : S) : (Matrix4x4.scale sx sy sz).m[8] = zero := rfl
@[simp] theorem scaleUniform_8 (s : S) : (Matrix4x4.scaleUniform s).m[8] = zero := rfl
@[simp] theorem muls_8 (a : Matrix4x4 S) (s : S) : (a * s).m[8] = a.m[8] * s := muls a s 8 (by omega)
@[simp] theorem divs_8 (a : Matrix4x4 S) (s : S) : (a / s).m[8] = a.m[8] / s := divs a s 8 (by omega)
@[simp] theorem new_8 (a : Vector S 16) : (Matrix4x4.new a).m[8] = a[8] := rfl
@[simp] theorem mm_9 (a b : Matrix4x4 S) : (a * b).m[9] = a.m[8] * b.m[1] + a.m[9] * b.m[5] + a.m[10] * b.m[9] + a.m[11] * b.m[13] := rfl
@[simp] theorem transpose_9 (a : Matrix4x4 S) : a.transpose.m[9] = a.m[6] := rfl
@[simp] theorem identity_9  : (Matrix4x4.identity : Matrix4x4 S).m[9] = zero := rfl
@[simp] theorem translate_9 (v : Vector3 S) : (Matrix4x4.translate v).m[9] = zero := rfl
@[simp] theorem scale_9 (sx sy sz : S) : (Matrix4x4.scale sx sy sz).m[9] = zero := rfl
@[simp] theorem scaleUniform_9 (s : S) : (Matrix4x4.scaleUniform s).m[9] = zero := rfl
@[simp] theorem muls_9 (a : Matrix4x4 S) (s : S) : (a * s).m[9] = a.m[9] * s := muls a s 9 (by omega)
@[simp] theorem divs_9 (a : Matrix4x4 S) (s : S) : (a / s).m[9] = a.m[9] / s := divs a s 9 (by omega)
@[simp] theorem new_9 (a : Vector S 16) : (Matrix4x4.new a).m[9] = a[9] := rfl
@[simp] theorem mm_10 (a b : Matrix4x4 S) : (a * b).m[10] = a.m[8] * b.m[2] + a.m[9] * b.m[6] + a.m[10] * b.m[10] + a.m[11] * b.m[14] := rfl
@[simp] theorem transpose_10 (a : Matrix4x4 S) : a.transpose.m[10] = a.m[10] := rfl
@[simp] theorem identity_10  : (Matrix4x4.identity : Matrix4x4 S).m[10] = one := rfl
@[simp] theorem translate_10 (v : Vector3 S) : (Matrix4x4.translate v).m[10] = one := rfl
@[simp] theorem scale_10 (sx sy sz : S) : (Matrix4x4.scale sx sy sz).m[10] = sz := rfl
@[simp] theorem scaleUniform_10 (s : S) : (Matrix4x4.scaleUniform s).m[10] = s := rfl
@[simp] theorem muls_10 (a : Matrix4x4 S) (s : S) : (a * s).m[10] = a.m[10] * s := muls a s 10 (by omega)
@[simp] theorem divs_10 (a : Matrix4x4 S) (s : S) : (a / s).m[10] = a.m[10] / s := divs a s 10 (by omega)
@[simp] theorem new_10 (a : Vector S 16) : (Matrix4x4.new a).m[10] = a[10] := rfl
@[simp] theorem mm_11 (a b : Matrix4x4 S) : (a * b).m[11] = a.m[8] * b.m[3] + a.m[9] * b.m[7] + a.m[10] * b.m[11] + a.m[11] * b.m[15] := rfl
@[simp] theorem transpose_11 (a : Matrix4x4 S) : a.transpose.m[11] = a.m[14] := rfl
@[simp] theorem identity_11  : (Matrix4x4.identity : Matrix4x4 S).m[11] = zero := rfl
@[simp] theorem translate_11 (v : Vector3 S) : (Matrix4x4.translate v).m[11] = v.z := rfl
@[simp] theorem scale_11 (sx sy sz : S) : (Matrix4x4.scale sx sy sz).m[11] = zero := rfl
@[simp] theorem scaleUniform_11 (s : S) : (Matrix4x4.scaleUniform s).m[11] = zero := rfl
@[simp] theorem muls_11 (a : Matrix4x4 S) (s : S) : (a * s).m[11] = a.m[11] * s := muls a s 11 (by omega)
@[simp] theorem divs_11 (a : Matrix4x4 S) (s : S) : (a / s).m[11] = a.m[11] / s := divs a s 11 (by omega)
@[simp] theorem new_11 (a : Vector S 16) : (Matrix4x4.new a).m[11] = a[11] := rfl
@[simp] theorem mm_12 (a b : Matrix4x4 S) : (a * b).m[12] = a.m[12] * b.m[0] + a.m[13] * b.m[4] + a.m[14] * b.m[8] + a.m[15] * b.m[12] := rfl
@[simp] theorem transpose_12 (a : Matrix4x4 S) : a.transpose.m[12] = a.m[3] := rfl
@[simp] theorem identity_12  : (Matrix4x4.identity : Matrix4x4 S).m[12] = zero := rfl
@[simp] theorem translate_12 (v : Vector3 S) : (Matrix4x4.translate v).m[12] = zero := rfl
@[simp] theorem scale_12 (sx sy sz : S) : (Matrix4x4.scale sx sy sz).m[12] = zero := rfl
@[simp] theorem scaleUniform_12 (s : S) : (Matrix4x4.scaleUniform s).m[12] = zero := rfl
@[simp] theorem muls_12 (a : Matrix4x4 S) (s : S) : (a * s).m[12] = a.m[12] * s := muls a s 12 (by omega)
@[simp] theorem divs_12 (a : Matrix4x4 S) (s : S) : (a / s).m[12] = a.m[12] / s := divs a s 12 (by omega)
@[simp] theorem new_12 (a : Vector S 16) : (Matrix4x4.new a).m[12] = a[12] := rfl
@[simp] theorem mm_13 (a b : Matrix4x4 S) : (a * b).m[13] = a.m[12] * b.m[1] + a.m[13] * b.m[5] + a.m[14] * b.m[9] + a.m[15] * b.m[13] := rfl
@[simp] theorem transpose_13 (a : Matrix4x4 S) : a.transpose.m[13] = a.m[7] := rfl
@[simp] theorem identity_13  : (Matrix4x4.identity : Matrix4x4 S).m[13] = zero := rfl
@[simp] theorem translate_13 (v : Vector3 S) : (Matrix4x4.translate v).m[13] = zero := rfl
@[simp] theorem scale_13 (sx sy sz : S) : (Matrix4x4.scale sx sy sz).m[13] = zero := rfl
@[simp] theorem scaleUniform_13 (s : S) : (Matrix4x4.scaleUniform s).m[13] = zero := rfl
@[simp] theorem muls_13 (a : Matrix4x4 S) (s : S) : (a * s).m[13] = a.m[13] * s := muls a s 13 (by omega)
@[simp] theorem divs_13 (a : Matrix4x4 S) (s : S) : (a / s).m[13] = a.m[13] / s := divs a s 13 (by omega)
@[simp] theorem new_13 (a : Vector S 16) : (Matrix4x4.new a).m[13] = a[13] := rfl
@[simp] theorem mm_14 (a b : Matrix4x4 S) : (a * b).m[14] = a.m[12] * b.m[2] + a.m[13] * b.m[6] + a.m[14] * b.m[10] + a.m[15] * b.m[14] := rfl
@[simp] theorem transpose_14 (a : Matrix4x4 S) : a.transpose.m[14] = a.m[11] := rfl
@[simp] theorem identity_14  : (Matrix4x4.identity : Matrix4x4 S).m[14] = zero := rfl
@[simp] theorem translate_14 (v : Vector3 S) : (Matrix4x4.translate v).m[14] = zero := rfl
@[simp] theorem scale_14 (sx sy sz : S) : (Matrix4x4.scale sx sy sz).m[14] = zero := rfl
@[simp] theorem scaleUniform_14 (s : S) : (Matrix4x4.scaleUniform s).m[14] = zero := rfl
@[simp] theorem muls_14 (a : Matrix4x4 S) (s : S) : (a * s).m[14] = a.m[14] * s := muls a s 14 (by omega)
@[simp] theorem divs_14 (a : Matrix4x4 S) (s : S) : (a / s).m[14] = a.m[14] / s := divs a s 14 (by omega)
@[simp] theorem new_14 (a : Vector S 16) : (Matrix4x4.new a).m[14] = a[14] := rfl
@[simp] theorem mm_15 (a b : Matrix4x4 S) : (a * b).m[15] = a.m[12] * b.m[3] + a.m[13] * b.m[7] + a.m[14] * b.m[11] + a.m[15] * b.m[15] := rfl
@[simp] theorem transpose_15 (a : Matrix4x4 S) : a.transpose.m[15] = a.m[15] := rfl
@[simp] theorem identity_15  : (Matrix4x4.identity : Matrix4x4 S).m[15] = one := rfl
@[simp] theorem translate_15 (v : Vector3 S) : (Matrix4x4.translate v).m[15] = one := rfl
@[simp] theorem scale_15 (sx sy sz : S) : (Matrix4x4.scale sx sy sz).m[15] = one := rfl
@[simp] theorem scaleUniform_15 (s : S) : (Matrix4x4.scaleUniform s).m[15] = one := rfl
@[simp] theorem muls_15 (a : Matrix4x4 S) (s : S) : (a * s).m[15] = a.m[15] * s := muls a s 15 (by omega)
@[simp] theorem divs_15 (a : Matrix4x4 S) (s : S) : (a / s).m[15] = a.m[15] / s := divs a s 15 (by omega)
@[simp] theorem new_15 (a : Vector S 16) : (Matrix4x4.new a).m[15] = a[15] := rfl
@[simp] theorem mulp_x (m : Matrix4x4 S) (p : Point3 S) : (m * p).x = (m.m[0] * p.x + m.m[1] * p.y + m.m[2] * p.z + m.m[3]) / (m.m[12] * p.x + m.m[13] * p.y + m.m[14] * p.z + m.m[15]) := rfl
@[simp] theorem mulv_x (m : Matrix4x4 S) (p : Vector3 S) : (m * p).x = m.m[0] * p.x + m.m[1] * p.y + m.m[2] * p.z := rfl
@[simp] theorem pmul_x (m : Matrix4x4 S) (p : Point3 S) : (p * m).x = (p.x * m.m[0] + p.y * m.m[4] + p.z * m.m[8] + m.m[12]) / (p.x * m.m[3] + p.y * m.m[7] + p.z * m.m[11] + m.m[15]) := rfl
@[simp] theorem vmul_x (m : Matrix4x4 S) (p : Vector3 S) : (p * m).x = p.x * m.m[0] + p.y * m.m[4] + p.z * m.m[8] := rfl
@[simp] theorem mulp_y (m : Matrix4x4 S) (p : Point3 S) : (m * p).y = (m.m[4] * p.x + m.m[5] * p.y + m.m[6] * p.z + m.m[7]) / (m.m[12] * p.x + m.m[13] * p.y + m.m[14] * p.z + m.m[15]) := rfl
@[simp] theorem mulv_y (m : Matrix4x4 S) (p : Vector3 S) : (m * p).y = m.m[4] * p.x + m.m[5] * p.y + m.m[6] * p.z := rfl
@[simp] theorem pmul_y (m : Matrix4x4 S) (p : Point3 S) : (p * m).y = (p.x * m.m[1] + p.y * m.m[5] + p.z * m.m[9] + m.m[13]) / (p.x * m.m[3] + p.y * m.m[7] + p.z * m.m[11] + m.m[15]) := rfl
@[simp] theorem vmul_y (m : Matrix4x4 S) (p : Vector3 S) : (p * m).y = p.x * m.m[1] + p.y * m.m[5] + p.z * m.m[9] := rfl
@[simp] theorem mulp_z (m : Matrix4x4 S) (p : Point3 S) : (m * p).z = (m.m[8] * p.x + m.m[9] * p.y + m.m[10] * p.z + m.m[11]) / (m.m[12] * p.x + m.m[13] * p.y + m.m[14] * p.z + m.m[15]) := rfl
@[simp] theorem mulv_z (m : Matrix4x4 S) (p : Vector3 S) : (m * p).z = m.m[8] * p.x + m.m[9] * p.y + m.m[10] * p.z := rfl
@[simp] theorem pmul_z (m : Matrix4x4 S) (p : Point3 S) : (p * m).z = (p.x * m.m[2] + p.y * m.m[6] + p.z * m.m[10] + m.m[14]) / (p.x * m.m[3] + p.y * m.m[7] + p.z * m.m[11] + m.m[15]) := rfl
@[simp] theorem vmul_z (m : Matrix4x4 S) (p : Vector3 S) : (p * m).z = p.x * m.m[2] + p.y * m.m[6] + p.z * m.m[10] := rfl
end Matrix4x4

theorem Matrix3x3.sameAll [IEEE S] {a b : Matrix3x3 S} :
    SameAll a b ↔ ∀ (i : ℕ) (h : i < 9), IEEE.Same a.m[i] b.m[i] := by
  obtain ⟨⟨⟨a⟩, ha⟩⟩ := a
  obtain ⟨⟨⟨b⟩, hb⟩⟩ := b
  simp only [SameAll, Comps.comps]
  rw [List.forall₂_iff_get]
  simp at ha hb
  simp [ha, hb]
theorem Matrix3x3.noNaN [IEEE S] {m : Matrix3x3 S} :
    NoNaN m ↔ ∀ (i : ℕ) (h : i < 9), ¬ IEEE.IsNaN m.m[i] := by
  simp only [NoNaN, Comps.comps, Vector.mem_toList_iff]
  constructor
  · intro h i hi; exact h _ (Vector.getElem_mem hi)
  · rintro h s hs
    obtain ⟨i, hi, rfl⟩ := Vector.getElem_of_mem hs
    exact h i hi

theorem Matrix4x4.sameAll [IEEE S] {a b : Matrix4x4 S} :
    SameAll a b ↔ ∀ (i : ℕ) (h : i < 16), IEEE.Same a.m[i] b.m[i] := by
  obtain ⟨⟨⟨a⟩, ha⟩⟩ := a
  obtain ⟨⟨⟨b⟩, hb⟩⟩ := b
  simp only [SameAll, Comps.comps]
  rw [List.forall₂_iff_get]
  simp at ha hb
  simp [ha, hb]
theorem Matrix4x4.noNaN [IEEE S] {m : Matrix4x4 S} :
    NoNaN m ↔ ∀ (i : ℕ) (h : i < 16), ¬ IEEE.IsNaN m.m[i] := by
  simp only [NoNaN, Comps.comps, Vector.mem_toList_iff]
  constructor
  · intro h i hi; exact h _ (Vector.getElem_mem hi)
  · rintro h s hs
    obtain ⟨i, hi, rfl⟩ := Vector.getElem_of_mem hs
    exact h i hi

set_option maxRecDepth 10000 in
/-- Unfold entries of matrices. -/
macro "mat_simp" "[" hs:Lean.Parser.Tactic.simpLemma,* "]" : tactic =>
  `(tactic| set_option linter.unusedSimpArgs false in simp only [
    Matrix3x3.mm_0, Matrix3x3.mm_1, Matrix3x3.mm_2, Matrix3x3.mm_3, Matrix3x3.mm_4, Matrix3x3.mm_5,
    Matrix3x3.mm_6, Matrix3x3.mm_7, Matrix3x3.mm_8, Matrix3x3.transpose_0, Matrix3x3.transpose_1,
    Matrix3x3.transpose_2, Matrix3x3.transpose_3, Matrix3x3.transpose_4, Matrix3x3.transpose_5,
    Matrix3x3.transpose_6, Matrix3x3.transpose_7, Matrix3x3.transpose_8, Matrix3x3.identity_0,
    Matrix3x3.identity_1, Matrix3x3.identity_2, Matrix3x3.identity_3, Matrix3x3.identity_4,
    Matrix3x3.identity_5, Matrix3x3.identity_6, Matrix3x3.identity_7, Matrix3x3.identity_8,
    Matrix3x3.translate_0, Matrix3x3.translate_1, Matrix3x3.translate_2, Matrix3x3.translate_3,
    Matrix3x3.translate_4, Matrix3x3.translate_5, Matrix3x3.translate_6, Matrix3x3.translate_7,
    Matrix3x3.translate_8, Matrix3x3.scale_0, Matrix3x3.scale_1, Matrix3x3.scale_2,
    Matrix3x3.scale_3, Matrix3x3.scale_4, Matrix3x3.scale_5, Matrix3x3.scale_6, Matrix3x3.scale_7,
    Matrix3x3.scale_8, Matrix3x3.scaleUniform_0, Matrix3x3.scaleUniform_1, Matrix3x3.scaleUniform_2,
    Matrix3x3.scaleUniform_3, Matrix3x3.scaleUniform_4, Matrix3x3.scaleUniform_5,
    Matrix3x3.scaleUniform_6, Matrix3x3.scaleUniform_7, Matrix3x3.scaleUniform_8, Matrix3x3.muls_0,
    Matrix3x3.muls_1, Matrix3x3.muls_2, Matrix3x3.muls_3, Matrix3x3.muls_4, Matrix3x3.muls_5,
    Matrix3x3.muls_6, Matrix3x3.muls_7, Matrix3x3.muls_8, Matrix3x3.divs_0, Matrix3x3.divs_1,
    Matrix3x3.divs_2, Matrix3x3.divs_3, Matrix3x3.divs_4, Matrix3x3.divs_5, Matrix3x3.divs_6,
    Matrix3x3.divs_7, Matrix3x3.divs_8, Matrix3x3.new_0, Matrix3x3.new_1, Matrix3x3.new_2,
    Matrix3x3.new_3, Matrix3x3.new_4, Matrix3x3.new_5, Matrix3x3.new_6, Matrix3x3.new_7,
    Matrix3x3.new_8, Matrix3x3.mulp_x, Matrix3x3.mulp_y, Matrix3x3.mulv_x, Matrix3x3.mulv_y,
    Matrix3x3.pmul_x, Matrix3x3.pmul_y, Matrix3x3.vmul_x, Matrix3x3.vmul_y, Matrix4x4.mm_0,
    Matrix4x4.mm_1, Matrix4x4.mm_2, Matrix4x4.mm_3, Matrix4x4.mm_4, Matrix4x4.mm_5, Matrix4x4.mm_6,
    Matrix4x4.mm_7, Matrix4x4.mm_8, Matrix4x4.mm_9, Matrix4x4.mm_10, Matrix4x4.mm_11,
    Matrix4x4.mm_12, Matrix4x4.mm_13, Matrix4x4.mm_14, Matrix4x4.mm_15, Matrix4x4.transpose_0,
    Matrix4x4.transpose_1, Matrix4x4.transpose_2, Matrix4x4.transpose_3, Matrix4x4.transpose_4,
    Matrix4x4.transpose_5, Matrix4x4.transpose_6, Matrix4x4.transpose_7, Matrix4x4.transpose_8,
    Matrix4x4.transpose_9, Matrix4x4.transpose_10, Matrix4x4.transpose_11, Matrix4x4.transpose_12,
    Matrix4x4.transpose_13, Matrix4x4.transpose_14, Matrix4x4.transpose_15, Matrix4x4.identity_0,
    Matrix4x4.identity_1, Matrix4x4.identity_2, Matrix4x4.identity_3, Matrix4x4.identity_4,
    Matrix4x4.identity_5, Matrix4x4.identity_6, Matrix4x4.identity_7, Matrix4x4.identity_8,
    Matrix4x4.identity_9, Matrix4x4.identity_10, Matrix4x4.identity_11, Matrix4x4.identity_12,
    Matrix4x4.identity_13, Matrix4x4.identity_14, Matrix4x4.identity_15, Matrix4x4.translate_0,
    Matrix4x4.translate_1, Matrix4x4.translate_2, Matrix4x4.translate_3, Matrix4x4.translate_4,
    Matrix4x4.translate_5, Matrix4x4.translate_6, Matrix4x4.translate_7, Matrix4x4.translate_8,
    Matrix4x4.translate_9, Matrix4x4.translate_10, Matrix4x4.translate_11, Matrix4x4.translate_12,
    Matrix4x4.translate_13, Matrix4x4.translate_14, Matrix4x4.translate_15, Matrix4x4.scale_0,
    Matrix4x4.scale_1, Matrix4x4.scale_2, Matrix4x4.scale_3, Matrix4x4.scale_4, Matrix4x4.scale_5,
    Matrix4x4.scale_6, Matrix4x4.scale_7, Matrix4x4.scale_8, Matrix4x4.scale_9, Matrix4x4.scale_10,
    Matrix4x4.scale_11, Matrix4x4.scale_12, Matrix4x4.scale_13, Matrix4x4.scale_14,
    Matrix4x4.scale_15, Matrix4x4.scaleUniform_0, Matrix4x4.scaleUniform_1,
    Matrix4x4.scaleUniform_2, Matrix4x4.scaleUniform_3, Matrix4x4.scaleUniform_4,
    Matrix4x4.scaleUniform_5, Matrix4x4.scaleUniform_6, Matrix4x4.scaleUniform_7,
    Matrix4x4.scaleUniform_8, Matrix4x4.scaleUniform_9, Matrix4x4.scaleUniform_10,
    Matrix4x4.scaleUniform_11, Matrix4x4.scaleUniform_12, Matrix4x4.scaleUniform_13,
    Matrix4x4.scaleUniform_14, Matrix4x4.scaleUniform_15, Matrix4x4.muls_0, Matrix4x4.muls_1,
    Matrix4x4.muls_2, Matrix4x4.muls_3, Matrix4x4.muls_4, Matrix4x4.muls_5, Matrix4x4.muls_6,
    Matrix4x4.muls_7, Matrix4x4.muls_8, Matrix4x4.muls_9, Matrix4x4.muls_10, Matrix4x4.muls_11,
    Matrix4x4.muls_12, Matrix4x4.muls_13, Matrix4x4.muls_14, Matrix4x4.muls_15, Matrix4x4.divs_0,
    Matrix4x4.divs_1, Matrix4x4.divs_2, Matrix4x4.divs_3, Matrix4x4.divs_4, Matrix4x4.divs_5,
    Matrix4x4.divs_6, Matrix4x4.divs_7, Matrix4x4.divs_8, Matrix4x4.divs_9, Matrix4x4.divs_10,
    Matrix4x4.divs_11, Matrix4x4.divs_12, Matrix4x4.divs_13, Matrix4x4.divs_14, Matrix4x4.divs_15,
    Matrix4x4.new_0, Matrix4x4.new_1, Matrix4x4.new_2, Matrix4x4.new_3, Matrix4x4.new_4,
    Matrix4x4.new_5, Matrix4x4.new_6, Matrix4x4.new_7, Matrix4x4.new_8, Matrix4x4.new_9,
    Matrix4x4.new_10, Matrix4x4.new_11, Matrix4x4.new_12, Matrix4x4.new_13, Matrix4x4.new_14,
    Matrix4x4.new_15, Matrix4x4.mulp_x, Matrix4x4.mulp_y, Matrix4x4.mulp_z, Matrix4x4.mulv_x,
    Matrix4x4.mulv_y, Matrix4x4.mulv_z, Matrix4x4.pmul_x, Matrix4x4.pmul_y, Matrix4x4.pmul_z,
    Matrix4x4.vmul_x, Matrix4x4.vmul_y, Matrix4x4.vmul_z,
    $hs,*])

end VecMath

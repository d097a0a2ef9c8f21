import Verif.Lemmas.Proj
/-!
# Properties that hold for every scalar type (layer G)

No law of arithmetic is used: these theorems hold bit for bit for `f32`, `f64` and any other
implementation of the trait `Scalar`.
-/

set_option linter.unusedSectionVars false

namespace VecMath
open Scalar
variable {S : Type} [Scalar S]

/-! ## C01: compound assignment agrees with the binary operator -/

theorem C01_vector2 (a : Vector2 S) (b : Vector2 S) (s : S) :
    (a.addAssign b = a + b ∧ a.subAssign b = a - b ∧ a.mulAssign s = a * s ∧ a.divAssign s = a / s) ∧
    Comps.comps (a.addAssign b) = List.zipWith (· + ·) (Comps.comps a) (Comps.comps b) ∧
    Comps.comps (a.subAssign b) = List.zipWith (· - ·) (Comps.comps a) (Comps.comps b) ∧
    Comps.comps (a.mulAssign s) = (Comps.comps a).map (· * s) ∧
    Comps.comps (a.divAssign s) = (Comps.comps a).map (· / s) :=
  ⟨⟨rfl, rfl, rfl, rfl⟩, rfl, rfl, rfl, rfl⟩
theorem C01_vector3 (a : Vector3 S) (b : Vector3 S) (s : S) :
    (a.addAssign b = a + b ∧ a.subAssign b = a - b ∧ a.mulAssign s = a * s ∧ a.divAssign s = a / s) ∧
    Comps.comps (a.addAssign b) = List.zipWith (· + ·) (Comps.comps a) (Comps.comps b) ∧
    Comps.comps (a.subAssign b) = List.zipWith (· - ·) (Comps.comps a) (Comps.comps b) ∧
    Comps.comps (a.mulAssign s) = (Comps.comps a).map (· * s) ∧
    Comps.comps (a.divAssign s) = (Comps.comps a).map (· / s) :=
  ⟨⟨rfl, rfl, rfl, rfl⟩, rfl, rfl, rfl, rfl⟩
theorem C01_point2 (a : Point2 S) (b : Vector2 S) (s : S) :
    (a.addAssign b = a + b ∧ a.subAssign b = a - b ∧ a.mulAssign s = a * s ∧ a.divAssign s = a / s) ∧
    Comps.comps (a.addAssign b) = List.zipWith (· + ·) (Comps.comps a) (Comps.comps b) ∧
    Comps.comps (a.subAssign b) = List.zipWith (· - ·) (Comps.comps a) (Comps.comps b) ∧
    Comps.comps (a.mulAssign s) = (Comps.comps a).map (· * s) ∧
    Comps.comps (a.divAssign s) = (Comps.comps a).map (· / s) :=
  ⟨⟨rfl, rfl, rfl, rfl⟩, rfl, rfl, rfl, rfl⟩
theorem C01_point3 (a : Point3 S) (b : Vector3 S) (s : S) :
    (a.addAssign b = a + b ∧ a.subAssign b = a - b ∧ a.mulAssign s = a * s ∧ a.divAssign s = a / s) ∧
    Comps.comps (a.addAssign b) = List.zipWith (· + ·) (Comps.comps a) (Comps.comps b) ∧
    Comps.comps (a.subAssign b) = List.zipWith (· - ·) (Comps.comps a) (Comps.comps b) ∧
    Comps.comps (a.mulAssign s) = (Comps.comps a).map (· * s) ∧
    Comps.comps (a.divAssign s) = (Comps.comps a).map (· / s) :=
  ⟨⟨rfl, rfl, rfl, rfl⟩, rfl, rfl, rfl, rfl⟩

theorem Matrix3x3.mul_m (m : Matrix3x3 S) (s : S) (i : ℕ) (h : i < 9) :
    (m * s).m[i] = m.m[i] * s := by
  show (Vector.ofFn fun i => m.m[i] * s)[i] = _
  simp
theorem Matrix3x3.div_m (m : Matrix3x3 S) (s : S) (i : ℕ) (h : i < 9) :
    (m / s).m[i] = m.m[i] / s := by
  show (Vector.ofFn fun i => m.m[i] / s)[i] = _
  simp
theorem Matrix4x4.mul_m (m : Matrix4x4 S) (s : S) (i : ℕ) (h : i < 16) :
    (m * s).m[i] = m.m[i] * s := by
  show (Vector.ofFn fun i => m.m[i] * s)[i] = _
  simp
theorem Matrix4x4.div_m (m : Matrix4x4 S) (s : S) (i : ℕ) (h : i < 16) :
    (m / s).m[i] = m.m[i] / s := by
  show (Vector.ofFn fun i => m.m[i] / s)[i] = _
  simp

theorem C01_matrix3x3 (m : Matrix3x3 S) (s : S) :
    (m.mulAssign s = m * s ∧ m.divAssign s = m / s) ∧
    Comps.comps (m.mulAssign s) = (Comps.comps m).map (· * s) ∧
    Comps.comps (m.divAssign s) = (Comps.comps m).map (· / s) := by
  refine ⟨⟨?_, ?_⟩, ?_, ?_⟩
  · ext i hi; rw [Matrix3x3.mul_m _ _ _ hi]; simp [Matrix3x3.mulAssign]
  · ext i hi; rw [Matrix3x3.div_m _ _ _ hi]; simp [Matrix3x3.divAssign]
  · simp [Comps.comps, Matrix3x3.mulAssign, Vector.toList, Vector.toArray_map]
  · simp [Comps.comps, Matrix3x3.divAssign, Vector.toList, Vector.toArray_map]
theorem C01_matrix4x4 (m : Matrix4x4 S) (s : S) :
    (m.mulAssign s = m * s ∧ m.divAssign s = m / s) ∧
    Comps.comps (m.mulAssign s) = (Comps.comps m).map (· * s) ∧
    Comps.comps (m.divAssign s) = (Comps.comps m).map (· / s) := by
  refine ⟨⟨?_, ?_⟩, ?_, ?_⟩
  · ext i hi; rw [Matrix4x4.mul_m _ _ _ hi]; simp [Matrix4x4.mulAssign]
  · ext i hi; rw [Matrix4x4.div_m _ _ _ hi]; simp [Matrix4x4.divAssign]
  · simp [Comps.comps, Matrix4x4.mulAssign, Vector.toList, Vector.toArray_map]
  · simp [Comps.comps, Matrix4x4.divAssign, Vector.toList, Vector.toArray_map]

/-! ## C02: scalar multiplication on either side -/

theorem C02_vectors_points (s : S) (v2 : Vector2 S) (v3 : Vector3 S) (p2 : Point2 S) (p3 : Point3 S) :
    (s * v2 = v2 * s ∧ s * v3 = v3 * s ∧ s * p2 = p2 * s ∧ s * p3 = p3 * s) ∧
    Comps.comps (s * v2) = (Comps.comps v2).map (· * s) ∧
    Comps.comps (s * v3) = (Comps.comps v3).map (· * s) ∧
    Comps.comps (s * p2) = (Comps.comps p2).map (· * s) ∧
    Comps.comps (s * p3) = (Comps.comps p3).map (· * s) :=
  ⟨⟨rfl, rfl, rfl, rfl⟩, rfl, rfl, rfl, rfl⟩
theorem C02_matrices (s : S) (m3 : Matrix3x3 S) (m4 : Matrix4x4 S) :
    (s * m3 = m3 * s ∧ s * m4 = m4 * s) ∧
    Comps.comps (s * m3) = (Comps.comps m3).map (· * s) ∧
    Comps.comps (s * m4) = (Comps.comps m4).map (· * s) := by
  refine ⟨⟨rfl, rfl⟩, ?_, ?_⟩
  · show Comps.comps (m3 * s) = _
    rw [← (C01_matrix3x3 m3 s).1.1]; exact (C01_matrix3x3 m3 s).2.1
  · show Comps.comps (m4 * s) = _
    rw [← (C01_matrix4x4 m4 s).1.1]; exact (C01_matrix4x4 m4 s).2.1

/-! ## C03: indexing by dimension -/

/-- Specification: the value a store holds at `d` after a history of writes, newest write last: the
latest write to `d` if there is one, otherwise the initial value. -/
def lastWritten {D : Type} [DecidableEq D] (init : D → S) (history : List (D × S)) (d : D) : S :=
  match history.reverse.find? (fun w => decide (w.1 = d)) with
  | some w => w.2
  | none => init d

theorem lastWritten_concat {D : Type} [DecidableEq D] (init : D → S) (h : List (D × S)) (w : D × S)
    (d : D) : lastWritten init (h ++ [w]) d = if w.1 = d then w.2 else lastWritten init h d := by
  unfold lastWritten
  by_cases hd : w.1 = d <;> simp [hd]

theorem C03_vector2_write (v : Vector2 S) (d e : Dimension2) (f : S → S) :
    (v.indexMut d f).index e = if e = d then f (v.index d) else v.index e := by
  cases d <;> cases e <;> rfl
theorem C03_vector3_write (v : Vector3 S) (d e : Dimension3) (f : S → S) :
    (v.indexMut d f).index e = if e = d then f (v.index d) else v.index e := by
  cases d <;> cases e <;> rfl
theorem C03_point2_write (v : Point2 S) (d e : Dimension2) (f : S → S) :
    (v.indexMut d f).index e = if e = d then f (v.index d) else v.index e := by
  cases d <;> cases e <;> rfl
theorem C03_point3_write (v : Point3 S) (d e : Dimension3) (f : S → S) :
    (v.indexMut d f).index e = if e = d then f (v.index d) else v.index e := by
  cases d <;> cases e <;> rfl

/-- `v[X]`, `v[Y]`, `v[Z]` are the fields `x`, `y`, `z`. -/
theorem C03_reads (v2 : Vector2 S) (v3 : Vector3 S) (p2 : Point2 S) (p3 : Point3 S) :
    (v2.index .X = v2.x ∧ v2.index .Y = v2.y) ∧
    (v3.index .X = v3.x ∧ v3.index .Y = v3.y ∧ v3.index .Z = v3.z) ∧
    (p2.index .X = p2.x ∧ p2.index .Y = p2.y) ∧
    (p3.index .X = p3.x ∧ p3.index .Y = p3.y ∧ p3.index .Z = p3.z) := by
  exact ⟨⟨rfl, rfl⟩, ⟨rfl, rfl, rfl⟩, ⟨rfl, rfl⟩, rfl, rfl, rfl⟩

private theorem history_aux {T D : Type} [DecidableEq D] (idx : T → D → S) (wr : T → D → S → T)
    (h1 : ∀ v d e s, idx (wr v d s) e = if e = d then s else idx v e) (v : T)
    (history : List (D × S)) (d : D) :
    idx (history.foldl (fun v w => wr v w.1 w.2) v) d = lastWritten (idx v) history d := by
  induction history using List.reverseRecOn with
  | nil => rfl
  | append_singleton h w ih =>
    rw [lastWritten_concat, List.foldl_append]
    simp only [List.foldl_cons, List.foldl_nil, h1, ih]
    by_cases hd : w.1 = d
    · simp [hd]
    · rw [if_neg hd, if_neg (fun e => hd e.symm)]

/-- After any history of assignments `v[d] = s`, reading `v[e]` gives the latest value written to `e`. -/
theorem C03_vector2_history (v : Vector2 S) (history : List (Dimension2 × S)) (d : Dimension2) :
    (history.foldl (fun v w => v.indexMut w.1 (fun _ => w.2)) v).index d
      = lastWritten v.index history d :=
  history_aux Vector2.index (fun v d s => v.indexMut d (fun _ => s))
    (fun v d e _ => C03_vector2_write v d e _) v history d
theorem C03_vector3_history (v : Vector3 S) (history : List (Dimension3 × S)) (d : Dimension3) :
    (history.foldl (fun v w => v.indexMut w.1 (fun _ => w.2)) v).index d
      = lastWritten v.index history d :=
  history_aux Vector3.index (fun v d s => v.indexMut d (fun _ => s))
    (fun v d e _ => C03_vector3_write v d e _) v history d
theorem C03_point2_history (v : Point2 S) (history : List (Dimension2 × S)) (d : Dimension2) :
    (history.foldl (fun v w => v.indexMut w.1 (fun _ => w.2)) v).index d
      = lastWritten v.index history d :=
  history_aux Point2.index (fun v d s => v.indexMut d (fun _ => s))
    (fun v d e _ => C03_point2_write v d e _) v history d
theorem C03_point3_history (v : Point3 S) (history : List (Dimension3 × S)) (d : Dimension3) :
    (history.foldl (fun v w => v.indexMut w.1 (fun _ => w.2)) v).index d
      = lastWritten v.index history d :=
  history_aux Point3.index (fun v d s => v.indexMut d (fun _ => s))
    (fun v d e _ => C03_point3_write v d e _) v history d

/-- A concrete history: two writes to Z and one to X. -/
example (v : Vector3 S) (a b c : S) :
    lastWritten v.index [(.Z, a), (.X, b), (.Z, c)] .Z = c ∧
    lastWritten v.index [(.Z, a), (.X, b), (.Z, c)] .X = b ∧
    lastWritten v.index [(.Z, a), (.X, b), (.Z, c)] .Y = v.y := ⟨rfl, rfl, rfl⟩

/-! ## C04: permute (length preservation is `C04_length` in `Verif.Props.RealVector`) -/

theorem C04_components2 (v : Vector2 S) (p : Point2 S) (a b : Dimension2) :
    ((v.permute a b).x = v.index a ∧ (v.permute a b).y = v.index b) ∧
    ((p.permute a b).x = p.index a ∧ (p.permute a b).y = p.index b) :=
  ⟨⟨rfl, rfl⟩, rfl, rfl⟩
theorem C04_components3 (v : Vector3 S) (p : Point3 S) (a b c : Dimension3) :
    ((v.permute a b c).x = v.index a ∧ (v.permute a b c).y = v.index b ∧
      (v.permute a b c).z = v.index c) ∧
    ((p.permute a b c).x = p.index a ∧ (p.permute a b c).y = p.index b ∧
      (p.permute a b c).z = p.index c) :=
  ⟨⟨rfl, rfl, rfl⟩, rfl, rfl, rfl⟩
theorem C04_identity (v2 : Vector2 S) (v3 : Vector3 S) (p2 : Point2 S) (p3 : Point3 S) :
    v2.permute .X .Y = v2 ∧ v3.permute .X .Y .Z = v3 ∧ p2.permute .X .Y = p2 ∧
    p3.permute .X .Y .Z = p3 := ⟨rfl, rfl, rfl, rfl⟩

/-- The dimension map described by the arguments of `permute`. -/
def dimMap2 (a b : Dimension2) : Dimension2 → Dimension2
  | .X => a
  | .Y => b
/-- The dimension map described by the arguments of `permute`. -/
def dimMap3 (a b c : Dimension3) : Dimension3 → Dimension3
  | .X => a
  | .Y => b
  | .Z => c

/-- `v.permute(a,b,c)[d] = v[map d]`, and permuting twice composes the maps. -/
theorem C04_index2 (v : Vector2 S) (p : Point2 S) (a b d : Dimension2) :
    (v.permute a b).index d = v.index (dimMap2 a b d) ∧
    (p.permute a b).index d = p.index (dimMap2 a b d) := by cases d <;> exact ⟨rfl, rfl⟩
theorem C04_index3 (v : Vector3 S) (p : Point3 S) (a b c d : Dimension3) :
    (v.permute a b c).index d = v.index (dimMap3 a b c d) ∧
    (p.permute a b c).index d = p.index (dimMap3 a b c d) := by cases d <;> exact ⟨rfl, rfl⟩
theorem C04_compose2 (v : Vector2 S) (p : Point2 S) (a b d e : Dimension2) :
    (v.permute a b).permute d e = v.permute (dimMap2 a b d) (dimMap2 a b e) ∧
    (p.permute a b).permute d e = p.permute (dimMap2 a b d) (dimMap2 a b e) := by
  cases d <;> cases e <;> exact ⟨rfl, rfl⟩
theorem C04_compose3 (v : Vector3 S) (p : Point3 S) (a b c d e f : Dimension3) :
    (v.permute a b c).permute d e f
      = v.permute (dimMap3 a b c d) (dimMap3 a b c e) (dimMap3 a b c f) ∧
    (p.permute a b c).permute d e f
      = p.permute (dimMap3 a b c d) (dimMap3 a b c e) (dimMap3 a b c f) := by
  cases d <;> cases e <;> cases f <;> exact ⟨rfl, rfl⟩

/-! ## C05: point/vector conversion (see `C05_origin*` in `Verif.Props.FloatVector` for `p - origin`) -/

theorem C05_roundtrip (p2 : Point2 S) (v2 : Vector2 S) (p3 : Point3 S) (v3 : Vector3 S) :
    Point2.fromVector (Vector2.fromPoint p2) = p2 ∧ Vector2.fromPoint (Point2.fromVector v2) = v2 ∧
    Point3.fromVector (Vector3.fromPoint p3) = p3 ∧ Vector3.fromPoint (Point3.fromVector v3) = v3 :=
  ⟨rfl, rfl, rfl, rfl⟩

/-! ## C17 (first half): selection functions return one of their arguments, the second unless the
first is strictly better -/

theorem C17_closest_selects (p a b : Point3 S) :
    Api.closest p a b = (if RelativeDistance.isCloserTo p a b then a else b) ∧
    (Api.closest p a b = a ∨ Api.closest p a b = b) ∧
    Api.farthest p a b = (if RelativeDistance.isFartherFrom p a b then a else b) ∧
    (Api.farthest p a b = a ∨ Api.farthest p a b = b) := by
  refine ⟨rfl, ?_, rfl, ?_⟩
  · show (if p.isCloserTo a b then a else b) = a ∨ (if p.isCloserTo a b then a else b) = b
    split <;> simp
  · show (if p.isFartherFrom a b then a else b) = a ∨ (if p.isFartherFrom a b then a else b) = b
    split <;> simp
theorem C17_closest_selects2 (p a b : Point2 S) :
    Api.closest p a b = (if RelativeDistance.isCloserTo p a b then a else b) ∧
    (Api.closest p a b = a ∨ Api.closest p a b = b) ∧
    Api.farthest p a b = (if RelativeDistance.isFartherFrom p a b then a else b) ∧
    (Api.farthest p a b = a ∨ Api.farthest p a b = b) := by
  refine ⟨rfl, ?_, rfl, ?_⟩
  · show (if p.isCloserTo a b then a else b) = a ∨ (if p.isCloserTo a b then a else b) = b
    split <;> simp
  · show (if p.isFartherFrom a b then a else b) = a ∨ (if p.isFartherFrom a b then a else b) = b
    split <;> simp
theorem C17_shortest_selects (u v : Vector3 S) :
    Api.shortest u v = (if RelativeLength.isShorterThan u v then u else v) ∧
    (Api.shortest u v = u ∨ Api.shortest u v = v) ∧
    Api.longest u v = (if RelativeLength.isLongerThan u v then u else v) ∧
    (Api.longest u v = u ∨ Api.longest u v = v) := by
  refine ⟨rfl, ?_, rfl, ?_⟩ <;>
  · simp only [Api.shortest, Api.longest, RelativeLength.shortest, RelativeLength.longest]
    split <;> simp
theorem C17_shortest_selects2 (u v : Vector2 S) :
    Api.shortest u v = (if RelativeLength.isShorterThan u v then u else v) ∧
    (Api.shortest u v = u ∨ Api.shortest u v = v) ∧
    Api.longest u v = (if RelativeLength.isLongerThan u v then u else v) ∧
    (Api.longest u v = u ∨ Api.longest u v = v) := by
  refine ⟨rfl, ?_, rfl, ?_⟩ <;>
  · simp only [Api.shortest, Api.longest, RelativeLength.shortest, RelativeLength.longest]
    split <;> simp

/-! ## C51 (structural part), C57 -/

/-- `inverse()` is an involution, and reverses composition, for every scalar type. -/
theorem C51_structural2 (a b : Transform2 S) :
    a.inv.inv = a ∧ (a.andThen b).inv = b.inv.andThen a.inv := ⟨rfl, rfl⟩
theorem C51_structural3 (a b : Transform3 S) :
    a.inv.inv = a ∧ (a.andThen b).inv = b.inv.andThen a.inv := ⟨rfl, rfl⟩
/-- `inverse()` swaps the stored matrices. -/
theorem C51_fields (a : Transform2 S) (b : Transform3 S) :
    (a.inv.forward = a.inverse ∧ a.inv.inverse = a.forward) ∧
    (b.inv.forward = b.inverse ∧ b.inv.inverse = b.forward) := ⟨⟨rfl, rfl⟩, rfl, rfl⟩

/-- `try_from(m)` is `Ok(t)` exactly when `m.inverse()` is `Ok(n)`, and then `t` is the pair `m`, `n`. -/
theorem C57_tryFrom2 (m : Matrix3x3 S) (t : Transform2 S) :
    Transform2.tryFrom m = .ok t ↔ t.forward = m ∧ m.inverse = .ok t.inverse := by
  unfold Transform2.tryFrom
  cases h : m.inverse with
  | error e => simp [bind, Except.bind]
  | ok n =>
    simp only [bind, Except.bind, Except.ok.injEq]
    constructor
    · rintro rfl; exact ⟨rfl, rfl⟩
    · rintro ⟨h1, h2⟩; cases t; simp_all [Transform2.new]
theorem C57_tryFrom3 (m : Matrix4x4 S) (t : Transform3 S) :
    Transform3.tryFrom m = .ok t ↔ t.forward = m ∧ m.inverse = .ok t.inverse := by
  unfold Transform3.tryFrom
  cases h : m.inverse with
  | error e => simp [bind, Except.bind]
  | ok n =>
    simp only [bind, Except.bind, Except.ok.injEq]
    constructor
    · rintro rfl; exact ⟨rfl, rfl⟩
    · rintro ⟨h1, h2⟩; cases t; simp_all [Transform3.new]
/-- `try_from(m)` is `Err` exactly when `m.inverse()` is. -/
theorem C57_tryFrom_err (m : Matrix3x3 S) (m' : Matrix4x4 S) (e : NonInvertibleMatrixError) :
    (Transform2.tryFrom m = .error e ↔ m.inverse = .error e) ∧
    (Transform3.tryFrom m' = .error e ↔ m'.inverse = .error e) := by
  constructor
  · unfold Transform2.tryFrom; cases h : m.inverse <;> simp [bind, Except.bind]
  · unfold Transform3.tryFrom; cases h : m'.inverse <;> simp [bind, Except.bind]

end VecMath

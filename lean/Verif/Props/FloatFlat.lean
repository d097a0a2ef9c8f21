import Verif.Spec.Flat
import Verif.Props.FloatZeroSign
/-! # C117: plane geometry in space – vectors, points, rays, boxes -/

open Classical

namespace VecMath
open Scalar IEEE Relator

section
variable {S : Type} [Scalar S] [IEEE S]

theorem vanishes_iff {a : S} : Vanishes a ↔ num a = .fin 0 := by
  unfold Vanishes; rw [sameNumber_iff, num_zero]; exact eq_comm
theorem vanishes_zero : Vanishes (zero : S) := vanishes_iff.2 num_zero
theorem Vanishes.finite {a : S} (h : Vanishes a) : IsFinite a := by
  have h := vanishes_iff.1 h
  have : (num a).IsFin := by rw [h]; trivial
  exact (Val.canon_isFin _).1 this
theorem zero_mul_zero {a b : S} (ha : Vanishes a) (hb : IsFinite b) : Vanishes (a * b) := by
  rw [vanishes_iff] at *
  rw [num_mul_congr (ha.trans num_zero.symm) rfl, IEEE.num_zero_mul hb, num_zero]
theorem mul_zero_zero {a b : S} (hb : Vanishes b) (ha : IsFinite a) : Vanishes (a * b) := by
  rw [vanishes_iff] at *
  rw [num_mul_congr rfl (hb.trans num_zero.symm), IEEE.num_mul_zero ha, num_zero]
theorem add_zero_zero {a b : S} (ha : Vanishes a) (hb : Vanishes b) : Vanishes (a + b) := by
  rw [vanishes_iff] at *
  rw [num_add_congr (ha.trans num_zero.symm) (hb.trans num_zero.symm), IEEE.num_add_zero, num_zero]
theorem neg_zero_zero {a : S} (ha : Vanishes a) : Vanishes (-a) := by
  have h := Kept.neg (ρ := SameNumber (S := S) (T := S)) ha
  unfold Vanishes
  rw [sameNumber_iff] at *
  rw [← h]
  unfold num; rw [den_neg, den_zero]; simp [Val.neg]
theorem sub_zero_zero {a b : S} (ha : Vanishes a) (hb : Vanishes b) : Vanishes (a - b) := by
  have h := add_zero_zero ha (neg_zero_zero hb)
  rw [vanishes_iff] at *
  rw [← h, (same_sub a b).num]
theorem zero_of {f : S → S} (hk : (SameNumber (S := S) (T := S) ⇒ SameNumber (S := S) (T := S)) f f) (h0 : num (f zero) = .fin 0) {a : S}
    (ha : Vanishes a) : Vanishes (f a) := by
  have := hk ha
  unfold Vanishes; rw [sameNumber_iff] at *
  rw [num_zero, ← this, h0]
theorem floor_zero' {a : S} (ha : Vanishes a) : Vanishes (Scalar.floor a) :=
  zero_of Kept.floor (by unfold num; rw [den_floor, den_zero]; simp [Val.toInt]) ha
theorem ceil_zero' {a : S} (ha : Vanishes a) : Vanishes (Scalar.ceil a) :=
  zero_of Kept.ceil (by unfold num; rw [den_ceil, den_zero]; simp [Val.toInt]) ha
theorem round_zero' {a : S} (ha : Vanishes a) : Vanishes (Scalar.round a) :=
  zero_of Kept.round (by unfold num; rw [den_round, den_zero]; simp [Val.toInt, roundR_zero]) ha
theorem trunc_zero' {a : S} (ha : Vanishes a) : Vanishes (Scalar.trunc a) :=
  zero_of Kept.trunc (by unfold num; rw [den_trunc, den_zero]; simp [Val.toInt, truncR_zero]) ha
theorem fract_zero' {a : S} (ha : Vanishes a) : Vanishes (Scalar.fract a) := sub_zero_zero ha (trunc_zero' ha)
theorem abs_zero' {a : S} (ha : Vanishes a) : Vanishes (Scalar.abs a) :=
  zero_of Kept.abs (by unfold num; rw [den_abs, den_zero]; simp [Val.abs]) ha
theorem Vanishes.not_nan {a : S} (h : Vanishes a) : ¬ IsNaN a := h.finite.not_nan
theorem Vanishes.val {a : S} (h : Vanishes a) : val a = 0 := by rw [val_num, vanishes_iff.1 h]; simp
theorem vanishes_of_val {a : S} (hn : ¬ IsNaN a) (h : IEEE.val a = 0) : Vanishes a := by
  unfold Vanishes; rw [sameNumber_iff]
  exact (num_ext (by simp [hn, (finite_zero (S := S)).not_nan]) (fun _ => by rw [h, val_zero])).symm
theorem min_zero' {a b : S} (ha : Vanishes a) (hb : Vanishes b) : Vanishes (fmin a b) :=
  vanishes_of_val (fun h => ha.not_nan (isNaN_min.1 h).1) (by rw [val_min ha.not_nan hb.not_nan, ha.val, hb.val, min_self])
theorem max_zero' {a b : S} (ha : Vanishes a) (hb : Vanishes b) : Vanishes (fmax a b) :=
  vanishes_of_val (fun h => ha.not_nan (isNaN_max.1 h).1) (by rw [val_max ha.not_nan hb.not_nan, ha.val, hb.val, max_self])
theorem div_zero' {a b : S} (ha : Vanishes a) (hn : ¬ IsNaN b) (hb : val b ≠ 0) : Vanishes (a / b) := by
  have h := vanishes_iff.1 ha
  rw [vanishes_iff]
  have hb' : (den b).ereal ≠ 0 := hb
  have e : num (a / b) = num (zero / b) := num_div_left _ (h.trans num_zero.symm)
  rw [e]
  unfold num; rw [den_div, den_zero]
  unfold IsNaN at hn
  revert hn hb'
  rcases den b with _ | t | _ | y
  · simp
  · simp [Rounding.div]
  · simp
  · intro _ h
    have hy : y ≠ 0 := by simpa using h
    simp only [Rounding.div]
    have hy' : (Val.fin y).real ≠ 0 := hy
    rw [if_neg hy']
    have e0 : (Val.fin 0).real / (Val.fin y).real = 0 := by simp [Val.real]
    rw [e0]
    unfold Rounding.finish
    simp

local notation "Z" => SameNumber (S := S) (T := S)

theorem add_z {a a' z : S} (h : Z a a') (hz : Vanishes z) : Z a (a' + z) := by
  rw [sameNumber_iff] at *
  rw [h, num_add_congr rfl ((vanishes_iff.1 hz).trans num_zero.symm), IEEE.num_add_zero]
theorem sub_z {a a' z : S} (h : Z a a') (hz : Vanishes z) : Z a (a' - z) := by
  have := add_z h (neg_zero_zero hz)
  rw [sameNumber_iff] at *
  rw [this, (same_sub a' z).num]
theorem z_add {a a' z : S} (h : Z a a') (hz : Vanishes z) : Z a (z + a') := by
  have := add_z h hz
  rw [sameNumber_iff] at *
  rw [this, (same_add_comm a' z).num]
theorem eq_zero_zero {a b : S} (ha : Vanishes a) (hb : Vanishes b) : (a == b) = true :=
  beq_iff.2 ⟨ha.not_nan, hb.not_nan, by rw [ha.val, hb.val]⟩

/-! ## Vectors -/

theorem flat_dot {u u' : Vector2 S} {v v' : Vector3 S} (h : FlatV Z u v) (h' : FlatV Z u' v') :
    Z (Api.dot u u') (Api.dot v v') :=
  add_z (Kept.add (Kept.mul h.1 h'.1) (Kept.mul h.2.1 h'.2.1)) (zero_mul_zero h.2.2 h'.2.2.finite)
theorem flat_ite {a b : Bool} (h : a = b) {u u' : Vector2 S} {v v' : Vector3 S} (hu : FlatV Z u v) (hu' : FlatV Z u' v') :
    FlatV Z (if a then u else u') (if b then v else v') := by
  subst h; cases a
  · exact hu'
  · exact hu
theorem flat_iteP {a b : Bool} (h : a = b) {u u' : Point2 S} {v v' : Point3 S} (hu : FlatP Z u v) (hu' : FlatP Z u' v') :
    FlatP Z (if a then u else u') (if b then v else v') := by
  subst h; cases a
  · exact hu'
  · exact hu

/-- **C117**: on vectors `(x, y, 0)` the functions of `Vector3` do what those of `Vector2` do: they return the same numbers, and again a
zero `z`. -/
theorem C117_vector :
    (Z ⇒ Z ⇒ FlatV Z) Vector2.new (fun x y => Vector3.new x y zero) ∧
    FlatV Z Vector2.zero Vector3.zero ∧ FlatV Z Vector2.xAxis Vector3.xAxis ∧ FlatV Z Vector2.yAxis Vector3.yAxis ∧
    (FlatV Z ⇒ FlatV Z) Vector2.floor Vector3.floor ∧ (FlatV Z ⇒ FlatV Z) Vector2.ceil Vector3.ceil ∧
    (FlatV Z ⇒ FlatV Z) Vector2.round Vector3.round ∧ (FlatV Z ⇒ FlatV Z) Vector2.trunc Vector3.trunc ∧
    (FlatV Z ⇒ FlatV Z) Vector2.fract Vector3.fract ∧ (FlatV Z ⇒ FlatV Z) Vector2.abs Vector3.abs ∧
    (FlatV Z ⇒ FlatV Z) (fun u => -u) (fun v => -v) ∧
    (FlatV Z ⇒ FlatV Z ⇒ FlatV Z) (fun u u' => u + u') (fun v v' => v + v') ∧
    (FlatV Z ⇒ FlatV Z ⇒ FlatV Z) (fun u u' => u - u') (fun v v' => v - v') ∧
    (FlatV Z ⇒ FlatV Z ⇒ FlatV Z) Api.min Api.min ∧ (FlatV Z ⇒ FlatV Z ⇒ FlatV Z) Api.max Api.max ∧
    (FlatV Z ⇒ FlatV Z ⇒ Eq) (fun u u' => u == u') (fun v v' => v == v') ∧
    (FlatV Z ⇒ FlatV Z ⇒ Z) Api.dot Api.dot ∧ (FlatV Z ⇒ Z) Api.length Api.length ∧
    (FlatV Z ⇒ FlatV Z ⇒ Eq) RelativeLength.isShorterThan RelativeLength.isShorterThan ∧
    (FlatV Z ⇒ FlatV Z ⇒ Eq) RelativeLength.isLongerThan RelativeLength.isLongerThan ∧
    (FlatV Z ⇒ FlatV Z ⇒ FlatV Z) Api.shortest Api.shortest ∧ (FlatV Z ⇒ FlatV Z ⇒ FlatV Z) Api.longest Api.longest := by
  have hlt : (FlatV Z ⇒ FlatV Z ⇒ Eq) (RelativeLength.isShorterThan (T := Vector2 S)) RelativeLength.isShorterThan :=
    fun _ _ h _ _ h' => Kept.lt (ρ := Z) (flat_dot h h) (flat_dot h' h')
  have hgt : (FlatV Z ⇒ FlatV Z ⇒ Eq) (RelativeLength.isLongerThan (T := Vector2 S)) RelativeLength.isLongerThan :=
    fun _ _ h _ _ h' => Kept.lt (ρ := Z) (flat_dot h' h') (flat_dot h h)
  refine ⟨fun _ _ h _ _ h' => ⟨h, h', vanishes_zero⟩, ⟨Kept.zero, Kept.zero, vanishes_zero⟩, ⟨Kept.one, Kept.zero, vanishes_zero⟩,
    ⟨Kept.zero, Kept.one, vanishes_zero⟩, fun _ _ h => ⟨Kept.floor h.1, Kept.floor h.2.1, floor_zero' h.2.2⟩,
    fun _ _ h => ⟨Kept.ceil h.1, Kept.ceil h.2.1, ceil_zero' h.2.2⟩, fun _ _ h => ⟨Kept.round h.1, Kept.round h.2.1, round_zero' h.2.2⟩,
    fun _ _ h => ⟨Kept.trunc h.1, Kept.trunc h.2.1, trunc_zero' h.2.2⟩,
    fun _ _ h => ⟨Kept.sub h.1 (Kept.trunc h.1), Kept.sub h.2.1 (Kept.trunc h.2.1), fract_zero' h.2.2⟩,
    fun _ _ h => ⟨Kept.abs h.1, Kept.abs h.2.1, abs_zero' h.2.2⟩, fun _ _ h => ⟨Kept.neg h.1, Kept.neg h.2.1, neg_zero_zero h.2.2⟩,
    fun _ _ h _ _ h' => ⟨Kept.add h.1 h'.1, Kept.add h.2.1 h'.2.1, add_zero_zero h.2.2 h'.2.2⟩,
    fun _ _ h _ _ h' => ⟨Kept.sub h.1 h'.1, Kept.sub h.2.1 h'.2.1, sub_zero_zero h.2.2 h'.2.2⟩,
    fun _ _ h _ _ h' => ⟨KeptMin.fmin h.1 h'.1, KeptMin.fmin h.2.1 h'.2.1, min_zero' h.2.2 h'.2.2⟩,
    fun _ _ h _ _ h' => ⟨KeptMin.fmax h.1 h'.1, KeptMin.fmax h.2.1 h'.2.1, max_zero' h.2.2 h'.2.2⟩, ?_,
    fun _ _ h _ _ h' => flat_dot h h', fun _ _ h => Kept.sqrt (flat_dot h h), hlt, hgt,
    fun _ _ h _ _ h' => flat_ite (hlt h h') h h', fun _ _ h _ _ h' => flat_ite (hgt h h') h h'⟩
  intro u v h u' v' h'
  show (u.x == u'.x && u.y == u'.y) = (v.x == v'.x && v.y == v'.y && v.z == v'.z)
  rw [eq_zero_zero h.2.2 h'.2.2, Bool.and_true]
  exact and_rel (Kept.beq (ρ := Z) h.1 h'.1) (Kept.beq (ρ := Z) h.2.1 h'.2.1)

/-- **C117**: scaling, by a finite factor. -/
theorem C117_scale {u : Vector2 S} {v : Vector3 S} {s t : S} (h : FlatV Z u v) (hs : Z s t) (hf : IsFinite t) :
    FlatV Z (u * s) (v * t) ∧ FlatV Z (s * u) (t * v) :=
  ⟨⟨Kept.mul h.1 hs, Kept.mul h.2.1 hs, zero_mul_zero h.2.2 hf⟩, ⟨Kept.mul h.1 hs, Kept.mul h.2.1 hs, zero_mul_zero h.2.2 hf⟩⟩
theorem number_nan {a b : S} (h : Z a b) : IsNaN a ↔ IsNaN b := num_nan (sameNumber_iff.1 h)
theorem number_val {a b : S} (h : Z a b) : val a = val b := num_val (sameNumber_iff.1 h)
/-- **C117**: division by a number other than zero. -/
theorem C117_div {u : Vector2 S} {v : Vector3 S} {s t : S} (h : FlatV Z u v) (hs : Z s t) (hn : ¬ IsNaN s) (h0 : val s ≠ 0) :
    FlatV Z (u / s) (v / t) :=
  ⟨number_div h.1 hs fun _ => h0, number_div h.2.1 hs fun _ => h0,
    div_zero' h.2.2 (fun c => hn ((number_nan hs).2 c)) (by rwa [← number_val hs])⟩
/-- **C117**: normalizing; of a vector whose length is zero or NaN only the `x` and `y` of the results agree (they are NaN). -/
theorem C117_normalize {u : Vector2 S} {v : Vector3 S} (h : FlatV Z u v) :
    Z u.normalize.x v.normalize.x ∧ Z u.normalize.y v.normalize.y ∧
    (¬ IsNaN (Api.length u) → val (Api.length u) ≠ 0 → Vanishes v.normalize.z) := by
  have hl : Z (Api.length u) (Api.length v) := Kept.sqrt (flat_dot h h)
  have e := canon_inj (sameNumber_iff.1 hl) (neg?_length2 u) (neg?_length3 v)
  exact ⟨sameNumber_iff.2 (num_quot_left (sameNumber_iff.1 h.1) e), sameNumber_iff.2 (num_quot_left (sameNumber_iff.1 h.2.1) e),
    fun hn h0 => div_zero' h.2.2 (fun c => hn ((number_nan hl).2 c)) (by rwa [← number_val hl])⟩
/-- **C117**: the cross product of two finite vectors of the plane is perpendicular to it, and its `z` is the determinant. -/
theorem C117_cross {u u' : Vector2 S} {v v' : Vector3 S} (h : FlatV Z u v) (h' : FlatV Z u' v') (hv : AllFinite v) (hv' : AllFinite v') :
    Vanishes (Api.cross v v').x ∧ Vanishes (Api.cross v v').y ∧ Z (u.x * u'.y - u.y * u'.x) (Api.cross v v').z := by
  rw [Vector3.allFinite] at hv hv'
  exact ⟨sub_zero_zero (mul_zero_zero h'.2.2 hv.2.1) (zero_mul_zero h.2.2 hv'.2.1),
    sub_zero_zero (zero_mul_zero h.2.2 hv'.1) (mul_zero_zero h'.2.2 hv.1),
    Kept.sub (Kept.mul h.1 h'.2.1) (Kept.mul h.2.1 h'.1)⟩
/-- **C117**: `max_dimension` of a vector other than zero names the same axis. -/
theorem C117_maxDimension {u : Vector2 S} {v : Vector3 S} (h : FlatV Z u v) (hx : ¬ IsNaN u.x) (hy : ¬ IsNaN u.y)
    (h0 : ¬ (Vanishes u.x ∧ Vanishes u.y)) :
    v.maxDimension = match u.maxDimension with | .X => .X | .Y => .Y := by
  have ax : Z (Scalar.abs u.x) (Scalar.abs v.x) := Kept.abs h.1
  have ay : Z (Scalar.abs u.y) (Scalar.abs v.y) := Kept.abs h.2.1
  have az := abs_zero' h.2.2
  have e1 : (Scalar.abs v.y <? Scalar.abs v.x) = (Scalar.abs u.y <? Scalar.abs u.x) := (Kept.lt (ρ := Z) ay ax).symm
  have nx : ¬ IsNaN (Scalar.abs u.x) := by rwa [isNaN_abs]
  have ny : ¬ IsNaN (Scalar.abs u.y) := by rwa [isNaN_abs]
  have gx := val_abs_nonneg u.x
  have gy := val_abs_nonneg u.y
  have zx : ∀ {a : S}, ¬ IsNaN a → val (Scalar.abs a) = 0 → Vanishes a := by
    intro a hn h
    refine vanishes_of_val hn ?_
    rcases val_abs a with e | e <;> rw [h] at e
    · exact e.symm
    · exact EReal.neg_eq_zero_iff.1 e.symm
  have l1 : (Scalar.abs v.z <? Scalar.abs v.x) = true ↔ 0 < val (Scalar.abs u.x) := by
    rw [lt_iff, az.val, number_val ax]
    exact ⟨fun h => h.2.2, fun h => ⟨az.not_nan, fun c => nx ((number_nan ax).2 c), h⟩⟩
  have l2 : (Scalar.abs v.z <? Scalar.abs v.y) = true ↔ 0 < val (Scalar.abs u.y) := by
    rw [lt_iff, az.val, number_val ay]
    exact ⟨fun h => h.2.2, fun h => ⟨az.not_nan, fun c => ny ((number_nan ay).2 c), h⟩⟩
  show (if (Scalar.abs v.y <? Scalar.abs v.x) && (Scalar.abs v.z <? Scalar.abs v.x) then Dimension3.X else
      if Scalar.abs v.z <? Scalar.abs v.y then .Y else .Z) = match (if Scalar.abs u.y <? Scalar.abs u.x then Dimension2.X else .Y) with | .X => .X | .Y => .Y
  rw [e1]
  cases hc : (Scalar.abs u.y <? Scalar.abs u.x) with
  | true => rw [l1.2 (gy.trans_lt (lt_iff.1 hc).2.2)]; rfl
  | false =>
    have hle : val (Scalar.abs u.x) ≤ val (Scalar.abs u.y) := by
      by_contra hlt
      rw [lt_iff.2 ⟨ny, nx, not_le.1 hlt⟩] at hc; cases hc
    have : 0 < val (Scalar.abs u.y) := by
      refine lt_of_le_of_ne gy fun e => h0 ⟨zx hx (le_antisymm (e ▸ hle) gx), zx hy e.symm⟩
    rw [l2.2 this]; rfl

/-! ## Points and rays -/

theorem flat_diff {p p' : Point2 S} {q q' : Point3 S} (h : FlatP Z p q) (h' : FlatP Z p' q') : FlatV Z (p - p') (q - q') :=
  ⟨Kept.sub h.1 h'.1, Kept.sub h.2.1 h'.2.1, sub_zero_zero h.2.2 h'.2.2⟩
/-- **C117**: the same for points. -/
theorem C117_point :
    (Z ⇒ Z ⇒ FlatP Z) Point2.new (fun x y => Point3.new x y zero) ∧ FlatP Z Point2.origin Point3.origin ∧
    (FlatP Z ⇒ FlatP Z) Point2.floor Point3.floor ∧ (FlatP Z ⇒ FlatP Z) Point2.ceil Point3.ceil ∧
    (FlatP Z ⇒ FlatP Z) Point2.round Point3.round ∧ (FlatP Z ⇒ FlatP Z) Point2.trunc Point3.trunc ∧
    (FlatP Z ⇒ FlatP Z) Point2.fract Point3.fract ∧ (FlatP Z ⇒ FlatP Z) Point2.abs Point3.abs ∧
    (FlatP Z ⇒ FlatP Z) (fun p => -p) (fun q => -q) ∧
    (FlatP Z ⇒ FlatV Z ⇒ FlatP Z) (fun p u => p + u) (fun q v => q + v) ∧
    (FlatP Z ⇒ FlatV Z ⇒ FlatP Z) (fun p u => p - u) (fun q v => q - v) ∧
    (FlatP Z ⇒ FlatP Z ⇒ FlatV Z) (fun p p' => p - p') (fun q q' => q - q') ∧
    (FlatP Z ⇒ FlatP Z ⇒ FlatP Z) Api.min Api.min ∧ (FlatP Z ⇒ FlatP Z ⇒ FlatP Z) Api.max Api.max ∧
    (FlatP Z ⇒ FlatP Z ⇒ Eq) (fun p p' => p == p') (fun q q' => q == q') ∧
    (FlatP Z ⇒ FlatP Z ⇒ Z) Api.distance Api.distance ∧
    (FlatP Z ⇒ FlatP Z ⇒ FlatP Z ⇒ Eq) RelativeDistance.isCloserTo RelativeDistance.isCloserTo ∧
    (FlatP Z ⇒ FlatP Z ⇒ FlatP Z ⇒ Eq) RelativeDistance.isFartherFrom RelativeDistance.isFartherFrom ∧
    (FlatP Z ⇒ FlatP Z ⇒ FlatP Z ⇒ FlatP Z) Api.closest Api.closest ∧
    (FlatP Z ⇒ FlatP Z ⇒ FlatP Z ⇒ FlatP Z) Api.farthest Api.farthest ∧
    (FlatP Z ⇒ FlatV Z) Vector2.fromPoint Vector3.fromPoint ∧ (FlatV Z ⇒ FlatP Z) Point2.fromVector Point3.fromVector := by
  obtain ⟨-, -, -, -, -, -, -, -, -, -, -, -, -, -, -, -, hd, hl, hs, hg, -, -⟩ := C117_vector (S := S)
  have hlt : (FlatP Z ⇒ FlatP Z ⇒ FlatP Z ⇒ Eq) (RelativeDistance.isCloserTo (T := Point2 S)) RelativeDistance.isCloserTo :=
    fun _ _ h _ _ h' _ _ h'' => hs (flat_diff h' h) (flat_diff h'' h)
  have hgt : (FlatP Z ⇒ FlatP Z ⇒ FlatP Z ⇒ Eq) (RelativeDistance.isFartherFrom (T := Point2 S)) RelativeDistance.isFartherFrom :=
    fun _ _ h _ _ h' _ _ h'' => hg (flat_diff h' h) (flat_diff h'' h)
  refine ⟨fun _ _ h _ _ h' => ⟨h, h', vanishes_zero⟩, ⟨Kept.zero, Kept.zero, vanishes_zero⟩,
    fun _ _ h => ⟨Kept.floor h.1, Kept.floor h.2.1, floor_zero' h.2.2⟩,
    fun _ _ h => ⟨Kept.ceil h.1, Kept.ceil h.2.1, ceil_zero' h.2.2⟩, fun _ _ h => ⟨Kept.round h.1, Kept.round h.2.1, round_zero' h.2.2⟩,
    fun _ _ h => ⟨Kept.trunc h.1, Kept.trunc h.2.1, trunc_zero' h.2.2⟩,
    fun _ _ h => ⟨Kept.sub h.1 (Kept.trunc h.1), Kept.sub h.2.1 (Kept.trunc h.2.1), fract_zero' h.2.2⟩,
    fun _ _ h => ⟨Kept.abs h.1, Kept.abs h.2.1, abs_zero' h.2.2⟩, fun _ _ h => ⟨Kept.neg h.1, Kept.neg h.2.1, neg_zero_zero h.2.2⟩,
    fun _ _ h _ _ h' => ⟨Kept.add h.1 h'.1, Kept.add h.2.1 h'.2.1, add_zero_zero h.2.2 h'.2.2⟩,
    fun _ _ h _ _ h' => ⟨Kept.sub h.1 h'.1, Kept.sub h.2.1 h'.2.1, sub_zero_zero h.2.2 h'.2.2⟩,
    fun _ _ h _ _ h' => flat_diff h h',
    fun _ _ h _ _ h' => ⟨KeptMin.fmin h.1 h'.1, KeptMin.fmin h.2.1 h'.2.1, min_zero' h.2.2 h'.2.2⟩,
    fun _ _ h _ _ h' => ⟨KeptMin.fmax h.1 h'.1, KeptMin.fmax h.2.1 h'.2.1, max_zero' h.2.2 h'.2.2⟩, ?_,
    fun _ _ h _ _ h' => hl (flat_diff h' h), hlt, hgt,
    fun _ _ h _ _ h' _ _ h'' => flat_iteP (hlt h h' h'') h' h'', fun _ _ h _ _ h' _ _ h'' => flat_iteP (hgt h h' h'') h' h'',
    fun _ _ h => h, fun _ _ h => h⟩
  intro u v h u' v' h'
  show (u.x == u'.x && u.y == u'.y) = (v.x == v'.x && v.y == v'.y && v.z == v'.z)
  rw [eq_zero_zero h.2.2 h'.2.2, Bool.and_true]
  exact and_rel (Kept.beq (ρ := Z) h.1 h'.1) (Kept.beq (ρ := Z) h.2.1 h'.2.1)
/-- **C117**: the points of a ray in the plane, at finite distances. -/
theorem C117_at {r : Ray2 S} {s : Ray3 S} {d e : S} (h : FlatR Z r s) (hd : Z d e) (hf : IsFinite e) : FlatP Z (r.at d) (s.at e) := by
  obtain ⟨h1, h2, h3⟩ := (C117_scale h.2 hd hf).1
  exact ⟨Kept.add h.1.1 h1, Kept.add h.1.2.1 h2, add_zero_zero h.1.2.2 h3⟩

/-! ## Boxes -/

theorem flat_new {p p' : Point2 S} {q q' : Point3 S} (h : FlatP Z p q) (h' : FlatP Z p' q') :
    FlatB Z (BoundingBox2.new p p') (BoundingBox3.new q q') :=
  ⟨⟨KeptMin.fmin h.1 h'.1, KeptMin.fmin h.2.1 h'.2.1, min_zero' h.2.2 h'.2.2⟩,
    ⟨KeptMin.fmax h.1 h'.1, KeptMin.fmax h.2.1 h'.2.1, max_zero' h.2.2 h'.2.2⟩⟩
theorem le_zero_zero {a b : S} (ha : Vanishes a) (hb : Vanishes b) : (a ≤? b) = true :=
  le_iff.2 ⟨ha.not_nan, hb.not_nan, by rw [ha.val, hb.val]⟩
/-- A flat box is a section. -/
theorem FlatB.section {a : BoundingBox2 S} {b : BoundingBox3 S} (h : FlatB Z a b) : SectionB Z a b :=
  ⟨⟨h.1.1, h.1.2.1, le_zero_zero h.1.2.2 vanishes_zero⟩, h.2.1, h.2.2.1, le_zero_zero vanishes_zero h.2.2.2⟩
theorem zle_trans {a b : S} (h : (a ≤? (zero : S)) = true) (h' : ((zero : S) ≤? b) = true) : (a ≤? b) = true := by
  rw [le_iff] at *
  exact ⟨h.1, h'.2.1, h.2.2.trans h'.2.2⟩
theorem zle_congr {a a' : S} (h : Vanishes a') : (a ≤? a') = (a ≤? (zero : S)) :=
  (Kept.le (ρ := Z) (sameNumber_iff.2 rfl) h).symm
theorem zge_congr {a a' : S} (h : Vanishes a') : (a' ≤? a) = ((zero : S) ≤? a) :=
  (Kept.le (ρ := Z) h (sameNumber_iff.2 rfl)).symm

/-- **C117**: on flat boxes: making boxes from corners, unions, extents. -/
theorem C117_flat :
    (FlatP Z ⇒ FlatP Z ⇒ FlatB Z) BoundingBox2.new BoundingBox3.new ∧
    (FlatB Z ⇒ FlatB Z ⇒ FlatB Z) (fun a a' => Api.union a a') (fun b b' => Api.union b b') ∧
    (FlatB Z ⇒ FlatP Z ⇒ FlatB Z) (fun a p => Api.union a p) (fun b q => Api.union b q) ∧
    (FlatB Z ⇒ FlatB Z ⇒ Option.Rel (FlatB Z)) (fun a a' => Api.intersect a a') (fun b b' => Api.intersect b b') ∧
    (FlatB Z ⇒ Z) BoundingBox2.width BoundingBox3.width ∧ (FlatB Z ⇒ Z) BoundingBox2.height BoundingBox3.height ∧
    (FlatB Z ⇒ FlatV Z) BoundingBox2.diagonal BoundingBox3.diagonal ∧
    (FlatB Z ⇒ FlatB Z ⇒ Eq) (fun a a' => a == a') (fun b b' => b == b') := by
  obtain ⟨-, -, -, -, -, -, -, -, -, -, -, -, hmin, hmax, heq, -⟩ := C117_point (S := S)
  refine ⟨fun _ _ h _ _ h' => flat_new h h', fun _ _ h _ _ h' => flat_new (hmin h.1 h'.1) (hmax h.2 h'.2),
    fun _ _ h _ _ h' => flat_new (hmin h.1 h') (hmax h.2 h'), ?_, fun _ _ h => Kept.sub h.2.1 h.1.1,
    fun _ _ h => Kept.sub h.2.2.1 h.1.2.1, fun _ _ h => flat_diff h.2 h.1, ?_⟩
  · intro a b h a' b' h'
    have e : a.overlaps a' = b.overlaps b' := by
      show (a'.min.x ≤? a.max.x && a.min.x ≤? a'.max.x && a'.min.y ≤? a.max.y && a.min.y ≤? a'.max.y) =
        (b'.min.x ≤? b.max.x && b.min.x ≤? b'.max.x && b'.min.y ≤? b.max.y && b.min.y ≤? b'.max.y && b'.min.z ≤? b.max.z && b.min.z ≤? b'.max.z)
      rw [le_zero_zero h'.1.2.2 h.2.2.2, le_zero_zero h.1.2.2 h'.2.2.2, Bool.and_true, Bool.and_true]
      exact and_rel (and_rel (and_rel (Kept.le (ρ := Z) h'.1.1 h.2.1) (Kept.le (ρ := Z) h.1.1 h'.2.1))
        (Kept.le (ρ := Z) h'.1.2.1 h.2.2.1)) (Kept.le (ρ := Z) h.1.2.1 h'.2.2.1)
    show Option.Rel _ (if a.overlaps a' then _ else _) (if b.overlaps b' then _ else _)
    rw [e]
    cases b.overlaps b'
    · exact .none
    · exact .some (flat_new (hmax h.1 h'.1) (hmin h.2 h'.2))
  · intro a b h a' b' h'
    exact and_rel (heq h.1 h'.1) (heq h.2 h'.2)
/-- **C117**: boxes that reach both sides of the plane (or up to it): the plane sections of unions and intersections are the unions and
intersections of the sections, and membership and overlap can be decided in the section. -/
theorem C117_section :
    (SectionB Z ⇒ FlatP Z ⇒ Eq) BoundingBox2.isInside BoundingBox3.isInside ∧
    (SectionB Z ⇒ SectionB Z ⇒ Eq) BoundingBox2.overlaps BoundingBox3.overlaps ∧
    (SectionB Z ⇒ SectionB Z ⇒ SectionB Z) (fun a a' => Api.union a a') (fun b b' => Api.union b b') ∧
    (SectionB Z ⇒ FlatP Z ⇒ SectionB Z) (fun a p => Api.union a p) (fun b q => Api.union b q) ∧
    (SectionB Z ⇒ SectionB Z ⇒ Option.Rel (SectionB Z)) (fun a a' => Api.intersect a a') (fun b b' => Api.intersect b b') := by
  have hov : (SectionB Z ⇒ SectionB Z ⇒ Eq) (BoundingBox2.overlaps (S := S)) BoundingBox3.overlaps := by
    intro a b h a' b' h'
    show (a'.min.x ≤? a.max.x && a.min.x ≤? a'.max.x && a'.min.y ≤? a.max.y && a.min.y ≤? a'.max.y) =
      (b'.min.x ≤? b.max.x && b.min.x ≤? b'.max.x && b'.min.y ≤? b.max.y && b.min.y ≤? b'.max.y && b'.min.z ≤? b.max.z && b.min.z ≤? b'.max.z)
    rw [zle_trans h'.1.2.2 h.2.2.2, zle_trans h.1.2.2 h'.2.2.2, Bool.and_true, Bool.and_true]
    exact and_rel (and_rel (and_rel (Kept.le (ρ := Z) h'.1.1 h.2.1) (Kept.le (ρ := Z) h.1.1 h'.2.1))
      (Kept.le (ρ := Z) h'.1.2.1 h.2.2.1)) (Kept.le (ρ := Z) h.1.2.1 h'.2.2.1)
  have minz : ∀ {a b : S}, (a ≤? (zero : S)) = true → (b ≤? (zero : S)) = true → (fmin a b ≤? (zero : S)) = true ∧ (fmax a b ≤? (zero : S)) = true := by
    intro a b h h'
    rw [le_iff] at *
    rw [le_iff, val_min h.1 h'.1, val_max h.1 h'.1]
    exact ⟨⟨fun c => h.1 (isNaN_min.1 c).1, h.2.1, (min_le_left _ _).trans h.2.2⟩,
      ⟨fun c => h.1 (isNaN_max.1 c).1, h.2.1, max_le h.2.2 h'.2.2⟩⟩
  have maxz : ∀ {a b : S}, ((zero : S) ≤? a) = true → ((zero : S) ≤? b) = true → ((zero : S) ≤? fmax a b) = true ∧ ((zero : S) ≤? fmin a b) = true := by
    intro a b h h'
    rw [le_iff] at *
    rw [le_iff, val_min h.2.1 h'.2.1, val_max h.2.1 h'.2.1]
    exact ⟨⟨h.1, fun c => h.2.1 (isNaN_max.1 c).1, h.2.2.trans (le_max_left _ _)⟩,
      ⟨h.1, fun c => h.2.1 (isNaN_min.1 c).1, le_min h.2.2 h'.2.2⟩⟩
  have mix : ∀ {a b : S}, (a ≤? (zero : S)) = true → ((zero : S) ≤? b) = true → (fmin a b ≤? (zero : S)) = true ∧ ((zero : S) ≤? fmax a b) = true := by
    intro a b h h'
    rw [le_iff] at *
    rw [le_iff, val_min h.1 h'.2.1, val_max h.1 h'.2.1]
    exact ⟨⟨fun c => h.1 (isNaN_min.1 c).1, h.2.1, (min_le_left _ _).trans h.2.2⟩,
      ⟨h'.1, fun c => h.1 (isNaN_max.1 c).1, h'.2.2.trans (le_max_right _ _)⟩⟩
  have hnew : ∀ {p p' : Point2 S} {q q' : Point3 S}, Z p.x q.x → Z p.y q.y → (q.z ≤? (zero : S)) = true → Z p'.x q'.x → Z p'.y q'.y →
      ((zero : S) ≤? q'.z) = true → SectionB Z (BoundingBox2.new p p') (BoundingBox3.new q q') := by
    intro p p' q q' h1 h2 h3 h4 h5 h6
    exact ⟨⟨KeptMin.fmin h1 h4, KeptMin.fmin h2 h5, (mix h3 h6).1⟩, KeptMin.fmax h1 h4, KeptMin.fmax h2 h5, (mix h3 h6).2⟩
  refine ⟨?_, hov, ?_, ?_, ?_⟩
  · intro a b h p q hp
    show (a.min.x ≤? p.x && p.x ≤? a.max.x && a.min.y ≤? p.y && p.y ≤? a.max.y) =
      (b.min.x ≤? q.x && q.x ≤? b.max.x && b.min.y ≤? q.y && q.y ≤? b.max.y && b.min.z ≤? q.z && q.z ≤? b.max.z)
    rw [zle_congr hp.2.2, zge_congr hp.2.2, h.1.2.2, h.2.2.2, Bool.and_true, Bool.and_true]
    exact and_rel (and_rel (and_rel (Kept.le (ρ := Z) h.1.1 hp.1) (Kept.le (ρ := Z) hp.1 h.2.1))
      (Kept.le (ρ := Z) h.1.2.1 hp.2.1)) (Kept.le (ρ := Z) hp.2.1 h.2.2.1)
  · intro a b h a' b' h'
    exact hnew (KeptMin.fmin h.1.1 h'.1.1) (KeptMin.fmin h.1.2.1 h'.1.2.1) (minz h.1.2.2 h'.1.2.2).1
      (KeptMin.fmax h.2.1 h'.2.1) (KeptMin.fmax h.2.2.1 h'.2.2.1) (maxz h.2.2.2 h'.2.2.2).1
  · intro a b h p q hp
    have z1 : (q.z ≤? (zero : S)) = true := le_zero_zero hp.2.2 vanishes_zero
    have z2 : ((zero : S) ≤? q.z) = true := le_zero_zero vanishes_zero hp.2.2
    exact hnew (KeptMin.fmin h.1.1 hp.1) (KeptMin.fmin h.1.2.1 hp.2.1) (minz h.1.2.2 z1).1
      (KeptMin.fmax h.2.1 hp.1) (KeptMin.fmax h.2.2.1 hp.2.1) (maxz h.2.2.2 z2).1
  · intro a b h a' b' h'
    show Option.Rel _ (if a.overlaps a' then _ else _) (if b.overlaps b' then _ else _)
    rw [hov h h']
    cases b.overlaps b'
    · exact .none
    · exact .some (hnew (KeptMin.fmax h.1.1 h'.1.1) (KeptMin.fmax h.1.2.1 h'.1.2.1) (minz h.1.2.2 h'.1.2.2).2
        (KeptMin.fmin h.2.1 h'.2.1) (KeptMin.fmin h.2.2.1 h'.2.2.1) (maxz h.2.2.2 h'.2.2.2).2)
/-- **C117**: the measures of a flat box with finite extents: its surface is twice the area, its volume is zero, its center is the center. -/
theorem C117_measure {a : BoundingBox2 S} {b : BoundingBox3 S} (h : FlatB Z a b) (hw : IsFinite b.width) (hh : IsFinite b.height) :
    Z (two * a.area) b.surfaceArea ∧ Vanishes b.depth ∧ (IsFinite (b.width * b.height) → Vanishes b.volume) ∧ FlatP Z a.center b.center := by
  have w : Z a.width b.width := Kept.sub h.2.1 h.1.1
  have e : Z a.height b.height := Kept.sub h.2.2.1 h.1.2.1
  have z : Vanishes b.depth := sub_zero_zero h.2.2.2 h.1.2.2
  refine ⟨?_, z, fun hf => mul_zero_zero z hf, ?_⟩
  · exact Kept.mul (ρ := Z) Kept.two (add_z (add_z (Kept.mul w e) (mul_zero_zero z hw)) (mul_zero_zero z hh))
  · exact ⟨Kept.add h.1.1 (Kept.mul w Kept.half), Kept.add h.1.2.1 (Kept.mul e Kept.half),
      add_zero_zero h.1.2.2 (zero_mul_zero z finite_half)⟩

/-- **C117**: the corners 0 to 3. -/
theorem C117_corner {a : BoundingBox2 S} {b : BoundingBox3 S} (h : FlatB Z a b) (m : Build) {i : UInt32} (hi : i < 4) :
    Outcome (FlatP Z) (a.corner m i) (b.corner m i) := by
  have hi8 : i < 8 := by
    have h4 : i.toNat < 4 := hi
    show i.toNat < 8
    omega
  unfold BoundingBox2.corner BoundingBox3.corner
  simp only [hi, hi8, not_true, and_false, if_false]
  refine .ok ⟨?_, ?_, ?_⟩
  · exact ite_rel rfl h.1.1 h.2.1
  · exact ite_rel rfl h.1.2.1 h.2.2.1
  · show Vanishes (if _ then _ else _)
    split_ifs
    · exact h.1.2.2
    · exact h.2.2.2

/-! ## Rays and boxes -/

theorem zero_cases {d : S} (h : Vanishes d) : den d = .nzero ∨ den d = .fin 0 := by
  have h := vanishes_iff.1 h
  unfold num at h
  revert h
  rcases den d with _ | t | _ | y <;> simp [Val.canon]
theorem quot_zero_inf {n d : S} (hd : Vanishes d) (hn : ¬ IsNaN n) (h0 : val n ≠ 0) : den (n / d) = .inf ((den n).neg? ^^ (den d).neg?) := by
  have h0 : (den n).ereal ≠ 0 := h0
  unfold IsNaN at hn
  rw [den_div]
  revert hn h0
  rcases zero_cases hd with e | e <;> rw [e] <;> rcases den n with _ | t | _ | y <;> simp [Rounding.div, Val.neg?]
theorem quot_zero_nan {n d : S} (hd : Vanishes d) (hn : Vanishes n) : IsNaN (n / d) := by
  unfold IsNaN
  rw [den_div]
  rcases zero_cases hd with e | e <;> rcases zero_cases hn with e' | e' <;> rw [e, e'] <;> simp [Rounding.div]
theorem neg?_of_val {n : S} (hn : ¬ IsNaN n) : (val n < 0 → (den n).neg? = true) ∧ (0 < val n → (den n).neg? = false) := by
  unfold IsNaN at hn
  unfold IEEE.val
  revert hn
  rcases den n with _ | (_ | _) | _ | y <;> simp [Val.neg?]
  intro h; exact_mod_cast h.le
/-- A pair of planes on both sides of a ray running along them sets no bounds. -/
theorem slab_free {l h o d : S} (ho : Vanishes o) (hd : Vanishes d) (hz : ((l ≤? (zero : S)) = true ∧ ((zero : S) ≤? h) = true) ∧
    ((val l < 0 ∧ 0 < val h) ∨ (Vanishes l ∧ Vanishes h))) : loVal (near l h o d) = ⊥ ∧ hiVal (far l h o d) = ⊤ := by
  obtain ⟨⟨l0, h0⟩, hz⟩ := hz
  have nl := (le_iff.1 l0).1
  have nh := (le_iff.1 h0).2.1
  have sl : Z l (l - o) := sub_z (sameNumber_iff.2 rfl) ho
  have sh : Z h (h - o) := sub_z (sameNumber_iff.2 rfl) ho
  unfold near far
  rcases hz with ⟨h1, h2⟩ | ⟨h1, h2⟩
  · have nl' : ¬ IsNaN (l - o) := fun c => nl ((number_nan sl).2 c)
    have nh' : ¬ IsNaN (h - o) := fun c => nh ((number_nan sh).2 c)
    rw [number_val sl] at h1
    rw [number_val sh] at h2
    have q1 := quot_zero_inf hd nl' h1.ne
    have q2 := quot_zero_inf hd nh' h2.ne'
    rw [(neg?_of_val nl').1 h1] at q1
    rw [(neg?_of_val nh').2 h2] at q2
    have w1 := val_inf q1
    have w2 := val_inf q2
    have m1 : ¬ IsNaN (fmin ((l - o) / d) ((h - o) / d)) := fun c => w1.1 (isNaN_min.1 c).1
    have m2 : ¬ IsNaN (fmax ((l - o) / d) ((h - o) / d)) := fun c => w1.1 (isNaN_max.1 c).1
    unfold loVal hiVal
    rw [if_neg m1, if_neg m2, val_min w1.1 w2.1, val_max w1.1 w2.1, w1.2, w2.2]
    cases (den d).neg? <;> simp
  · have z1 : Vanishes (l - o) := sub_zero_zero h1 ho
    have z2 : Vanishes (h - o) := sub_zero_zero h2 ho
    have q1 := quot_zero_nan hd z1
    have q2 := quot_zero_nan hd z2
    unfold loVal hiVal
    rw [if_pos (isNaN_min.2 ⟨q1, q2⟩), if_pos (isNaN_max.2 ⟨q1, q2⟩)]
    exact ⟨rfl, rfl⟩

/-- **C117**: a ray in the plane hits a box that reaches strictly to both sides of the plane, or that lies in it, exactly if it hits
the section, and over the same range. -/
theorem C117_ray_box {a : BoundingBox2 S} {b : BoundingBox3 S} {r : Ray2 S} {s : Ray3 S} (hb : SectionB Eq a b) (hr : FlatR Eq r s)
    (hz : (val b.min.z < 0 ∧ 0 < val b.max.z) ∨ (Vanishes b.min.z ∧ Vanishes b.max.z)) :
    Option.Rel (Rg Z) (Api.intersect a r) (Api.intersect b s) := by
  obtain ⟨hn, hf⟩ := slab_free hr.1.2.2 hr.2.2.2 ⟨⟨hb.1.2.2, hb.2.2.2⟩, hz⟩
  have e1 : startVal3 b s = startVal2 a r := by
    unfold startVal3 startVal2
    rw [hn, hb.1.1, hb.1.2.1, hb.2.1, hb.2.2.1, hr.1.1, hr.1.2.1, hr.2.1, hr.2.2.1]; simp
  have e2 : stopVal3 b s = stopVal2 a r := by
    unfold stopVal3 stopVal2
    rw [hf, hb.1.1, hb.1.2.1, hb.2.1, hb.2.2.1, hr.1.1, hr.1.2.1, hr.2.1, hr.2.2.1]; simp
  have p := hit_iff2 a r
  have q := hit_iff3 b s
  show Option.Rel _ (a.intersectRay r) (b.intersectRay s)
  by_cases h : startVal2 a r ≤ stopVal2 a r
  · obtain ⟨i, e, a1, a2, a3, a4⟩ := p.1 h
    obtain ⟨j, e', b1, b2, b3, b4⟩ := q.1 (by rwa [e1, e2])
    rw [e, e']
    exact .some ⟨.inr ⟨a1, b1, by rw [a3, b3, e1]⟩, .inr ⟨a2, b2, by rw [a4, b4, e2]⟩⟩
  · rw [p.2 h, q.2 (by rwa [e1, e2])]; exact .none

end
end VecMath

import Verif.Lemmas.Range
import Verif.Spec.Ray
import Verif.Props.FloatErrorMat
import Verif.Props.FloatMeasure
import Verif.Props.FloatVector
/-!
# C86: data of moderate size never overflows, and loses nothing to underflow

`Room S e N` says that the format holds `N · 2^e`; a bound that holds for the exact result then holds for the computed
one, since rounding does not cross a number of the format.
-/

namespace VecMath
open Scalar IEEE

variable {S : Type} [Scalar S] [IEEE S] [Binary S] {k a b : ℤ}

omit [Binary S] in
theorem UpTo.eq {B C : ℝ} {x : S} (h : UpTo B x) (e : B = C) : UpTo C x := e ▸ h
omit [Binary S] in
theorem UpTo.num {B : ℝ} {x y : S} (h : UpTo B x) (e : num y = num x) : UpTo B y :=
  ⟨(finite_num e).2 h.1, by rw [real_num e]; exact h.2⟩
omit [Binary S] in
theorem upTo_two : UpTo ((2 : ℕ) * 2 ^ (0 : ℤ)) (two : S) := ⟨finite_two, by rw [real_two]; norm_num⟩
omit [Binary S] in
theorem upTo_half : UpTo ((1 : ℕ) * 2 ^ (-1 : ℤ)) (half : S) := ⟨finite_half, by rw [real_half]; norm_num⟩
omit [Binary S] in
theorem upTo_zero {B : ℝ} (h : 0 ≤ B) : UpTo B (zero : S) := ⟨finite_zero, by rw [real_zero, abs_zero]; exact h⟩
omit [Binary S] in
theorem real_sq_nonneg2 {x y : S} (h : IsFinite (x * x + y * y)) : 0 ≤ real (x * x + y * y) := by
  have hn : NoNaN (Vector2.new x y) := by
    by_contra hc
    exact h.not_nan (((C09_diagonal2 (Vector2.new x y)).1).2 hc)
  have := (le_iff.1 ((C09_diagonal2 (Vector2.new x y)).2 hn)).2.2
  rw [val_zero] at this
  have e : val (x * x + y * y) = ((real (x * x + y * y) : ℝ) : EReal) := h.val
  have t : (0 : EReal) ≤ val (x * x + y * y) := this
  rw [e] at t
  exact_mod_cast t
omit [Binary S] in
theorem real_sq_nonneg3 {x y z : S} (h : IsFinite (x * x + y * y + z * z)) : 0 ≤ real (x * x + y * y + z * z) := by
  have hn : NoNaN (Vector3.new x y z) := by
    by_contra hc
    exact h.not_nan (((C09_diagonal3 (Vector3.new x y z)).1).2 hc)
  have := (le_iff.1 ((C09_diagonal3 (Vector3.new x y z)).2 hn)).2.2
  rw [val_zero] at this
  have e : val (x * x + y * y + z * z) = ((real (x * x + y * y + z * z) : ℝ) : EReal) := h.val
  have t : (0 : EReal) ≤ val (x * x + y * y + z * z) := this
  rw [e] at t
  exact_mod_cast t
omit [Binary S] in
theorem UpTo.min {B : ℝ} {x y : S} (hx : UpTo B x) (hy : UpTo B y) : UpTo B (Api.min x y) := by
  rcases min_same (a := x) (b := y) with h | h
  · exact hx.num h.num
  · exact hy.num h.num
omit [Binary S] in
theorem UpTo.max {B : ℝ} {x y : S} (hx : UpTo B x) (hy : UpTo B y) : UpTo B (Api.max x y) := by
  rcases max_same (a := x) (b := y) with h | h
  · exact hx.num h.num
  · exact hy.num h.num

/-! ### 2D -/

/-- **C86**: sums and differences. -/
theorem C86_sum2 (u v : Vector2 S) (p q : Point2 S) (hu : UpToAll (2 ^ k) u) (hv : UpToAll (2 ^ k) v) (hp : UpToAll (2 ^ k) p)
    (hq : UpToAll (2 ^ k) q) (hR : Room S k 2) :
    UpToAll (2 * 2 ^ k) (u + v) ∧ UpToAll (2 * 2 ^ k) (u - v) ∧ UpToAll (2 * 2 ^ k) (p + v) ∧ UpToAll (2 * 2 ^ k) (p - v) ∧
    UpToAll (2 * 2 ^ k) (p - q : Vector2 S) := by
  rw [Vector2.upToAll] at hu hv
  rw [Point2.upToAll] at hp hq
  have ad : ∀ {x y : S}, UpTo (2 ^ k) x → UpTo (2 ^ k) y → UpTo (2 * 2 ^ k) (x + y) :=
    fun hx hy => (hx.pow.add hy.pow hR).eq (by norm_num)
  have su : ∀ {x y : S}, UpTo (2 ^ k) x → UpTo (2 ^ k) y → UpTo (2 * 2 ^ k) (x - y) :=
    fun hx hy => (hx.pow.sub hy.pow hR).eq (by norm_num)
  exact ⟨Vector2.upToAll.2 ⟨ad hu.1 hv.1, ad hu.2 hv.2⟩,
    Vector2.upToAll.2 ⟨su hu.1 hv.1, su hu.2 hv.2⟩,
    Point2.upToAll.2 ⟨ad hp.1 hv.1, ad hp.2 hv.2⟩,
    Point2.upToAll.2 ⟨su hp.1 hv.1, su hp.2 hv.2⟩,
    Vector2.upToAll.2 ⟨su hp.1 hq.1, su hp.2 hq.2⟩⟩

/-- **C86**: multiples and quotients. -/
theorem C86_multiple2 (v : Vector2 S) (s : S) (hv : UpToAll (2 ^ a) v) (hR : Room S (a + b) 1) :
    (UpTo (2 ^ b) s → UpToAll (2 ^ (a + b)) (v * s)) ∧
    (IsFinite s → 2 ^ (-b) ≤ |real s| → UpToAll (2 ^ (a + b)) (v / s)) := by
  rw [Vector2.upToAll] at hv
  refine ⟨fun hs => Vector2.upToAll.2 ?_, fun hs h0 => Vector2.upToAll.2 ?_⟩
  · have mu : ∀ {x : S}, UpTo (2 ^ a) x → UpTo (2 ^ (a + b)) (x * s) :=
      fun hx => (hx.pow.mul hs.pow hR).eq (by norm_num)
    exact ⟨mu hv.1, mu hv.2⟩
  · have di : ∀ {x : S}, UpTo (2 ^ a) x → UpTo (2 ^ (a + b)) (x / s) :=
      fun hx => (hx.pow.div hs h0 hR).eq (by norm_num)
    exact ⟨di hv.1, di hv.2⟩

/-- **C86**: inner products. -/
theorem C86_dot2 (u v : Vector2 S) (hu : UpToAll (2 ^ a) u) (hv : UpToAll (2 ^ b) v) (hR : Room S (a + b) 2) :
    UpTo (2 * 2 ^ (a + b)) (Api.dot u v) := by
  rw [Vector2.upToAll] at hu hv
  exact (UpTo.dot2 hu.1.pow hu.2.pow hv.1.pow hv.2.pow hR).eq (by norm_num)
/-- **C86**: lengths. -/
theorem C86_length2 (v : Vector2 S) (hv : UpToAll (2 ^ k) v) (hR : Room S (2 * k) 2) (hR' : Room S k 2) :
    UpTo (2 * 2 ^ k) (Api.length v) := by
  rw [Vector2.upToAll] at hv
  rw [two_mul] at hR
  have := UpTo.dot2 hv.1.pow hv.2.pow hv.1.pow hv.2.pow hR
  rw [← two_mul k] at this
  exact (this.sqrt (N := 2) (real_sq_nonneg2 this.1) (by norm_num) hR').eq (by norm_num)
/-- **C86**: distances. -/
theorem C86_distance2 (p q : Point2 S) (hp : UpToAll (2 ^ k) p) (hq : UpToAll (2 ^ k) q) (hR : Room S (2 * k) 8)
    (hR' : Room S k 4) : UpTo (4 * 2 ^ k) (Api.distance p q) := by
  have hv := Vector2.upToAll.1 (C86_sum2 Vector2.zero Vector2.zero q p (Vector2.upToAll.2 ⟨upTo_zero (Fmt.z_pos k).le, upTo_zero (Fmt.z_pos k).le⟩) (Vector2.upToAll.2 ⟨upTo_zero (Fmt.z_pos k).le, upTo_zero (Fmt.z_pos k).le⟩) hq hp (hR'.mono (by norm_num))).2.2.2.2
  rw [two_mul] at hR
  have e : ∀ {x : S}, UpTo (2 * 2 ^ k) x → UpTo ((2 : ℕ) * 2 ^ k) x := fun h => h.eq (by norm_num)
  have := UpTo.dot2 (e hv.1) (e hv.2) (e hv.1) (e hv.2) (hR.mono (by norm_num))
  rw [← two_mul k] at this
  exact (this.sqrt (N := 4) (real_sq_nonneg2 this.1) (by norm_num) hR').eq (by norm_num)

/-- **C86**: points of a ray. -/
theorem C86_at2 (r : Ray2 S) (s : S) (ho : UpToAll (2 ^ (a + b)) r.origin) (hd : UpToAll (2 ^ a) r.direction)
    (hs : UpTo (2 ^ b) s) (hR : Room S (a + b) 2) : UpToAll (2 * 2 ^ (a + b)) (r.at s) := by
  rw [Point2.upToAll] at ho
  rw [Vector2.upToAll] at hd
  have key : ∀ {x y : S}, UpTo (2 ^ (a + b)) x → UpTo (2 ^ a) y → UpTo (2 * 2 ^ (a + b)) (x + y * s) := fun hx hy =>
    (hx.pow.add (((hy.pow.mul hs.pow (hR.mono (by norm_num)))).eq (by norm_num)).pow hR).eq (by norm_num)
  exact Point2.upToAll.2 ⟨key ho.1 hd.1, key ho.2 hd.2⟩

/-- **C86**: extents, area and center of a box. -/
theorem C86_box2 (b : BoundingBox2 S) (hb : UpToAll (2 ^ k) b) (hR : Room S k 2) :
    UpTo (2 * 2 ^ k) b.width ∧ UpTo (2 * 2 ^ k) b.height ∧
    UpToAll (2 * 2 ^ k) b.diagonal ∧ (Room S (k - 1) 2 → UpToAll (2 * 2 ^ k) b.center) ∧
    (Room S (2 * k) 4 → UpTo (4 * 2 ^ (2 * k)) b.area) := by
  rw [BoundingBox2.upToAll, Point2.upToAll, Point2.upToAll] at hb
  obtain ⟨hm, hM⟩ := hb
  have su : ∀ {x y : S}, UpTo (2 ^ k) x → UpTo (2 ^ k) y → UpTo (2 * 2 ^ k) (x - y) :=
    fun hx hy => (hx.pow.sub hy.pow hR).eq (by norm_num)
  have ce : ∀ {x y : S}, Room S (k - 1) 2 → UpTo (2 ^ k) x → UpTo (2 * 2 ^ k) y → UpTo (2 * 2 ^ k) (x + y * half) := fun hR' hx hy => by
    have h1 := UpTo.mul (M := 2) (e := k) (hy.eq (by norm_num)) upTo_half hR'
    have h2 : UpTo ((1 : ℕ) * 2 ^ k) (_ * half) := h1.eq (by
      rw [Fmt.z_add]; push_cast; rw [zpow_neg_one]; ring)
    exact (hx.pow.add h2 hR).eq (by norm_num)
  have n2 : ∀ {x : S}, UpTo (2 * 2 ^ k) x → UpTo ((2 : ℕ) * 2 ^ k) x := fun h => h.eq (by norm_num)
  have w0 : UpTo (2 * 2 ^ k) b.width := su hM.1 hm.1
  have w1 : UpTo (2 * 2 ^ k) b.height := su hM.2 hm.2
  refine ⟨w0, w1, Vector2.upToAll.2 ⟨w0, w1⟩, fun h => Point2.upToAll.2 ⟨ce h hm.1 w0, ce h hm.2 w1⟩, fun h => ?_⟩
  rw [two_mul] at h ⊢
  exact ((n2 w0).mul (n2 w1) h).eq (by norm_num)

omit [Binary S] in
theorem BoundingBox2.new_upTo {B : ℝ} {p q : Point2 S} (hp : UpToAll B p) (hq : UpToAll B q) : UpToAll B (BoundingBox2.new p q) := by
  rw [Point2.upToAll] at hp hq
  exact BoundingBox2.upToAll.2 ⟨Point2.upToAll.2 ⟨UpTo.min hp.1 hq.1, UpTo.min hp.2 hq.2⟩, Point2.upToAll.2 ⟨UpTo.max hp.1 hq.1, UpTo.max hp.2 hq.2⟩⟩
omit [Binary S] in
/-- **C86**: bounding boxes, unions and intersections have no coordinates but those they are made of. -/
theorem C86_union2 {B : ℝ} (b c : BoundingBox2 S) (p q : Point2 S) (hb : UpToAll B b) (hc : UpToAll B c) (hp : UpToAll B p)
    (hq : UpToAll B q) : UpToAll B (BoundingBox2.new p q) ∧ UpToAll B (Api.union b c : BoundingBox2 S) ∧ UpToAll B (Api.union b p : BoundingBox2 S) ∧
    ∀ r, Api.intersect b c = some r → UpToAll B (r : BoundingBox2 S) := by
  rw [BoundingBox2.upToAll] at hb hc
  have mi : ∀ {p q : Point2 S}, UpToAll B p → UpToAll B q → UpToAll B (Api.min p q) := fun hp hq => (BoundingBox2.upToAll.1 (BoundingBox2.new_upTo hp hq)).1
  have ma : ∀ {p q : Point2 S}, UpToAll B p → UpToAll B q → UpToAll B (Api.max p q) := fun hp hq => (BoundingBox2.upToAll.1 (BoundingBox2.new_upTo hp hq)).2
  refine ⟨BoundingBox2.new_upTo hp hq, BoundingBox2.new_upTo (mi hb.1 hc.1) (ma hb.2 hc.2), BoundingBox2.new_upTo (mi hb.1 hp) (ma hb.2 hp), fun r h => ?_⟩
  simp only [Api.intersect, BoxIntersection.intersect] at h
  split at h
  · cases h
    exact BoundingBox2.new_upTo (ma hb.1 hc.1) (mi hb.2 hc.2)
  · cases h

/-- **C86**: if box and ray origin are at most `2^a` in size and each direction coordinate is zero or at least `2^-b`,
nothing overflows in the slab test, which is what C65 and C83 ask. -/
theorem C86_ray2 (box : BoundingBox2 S) (r : Ray2 S) (hb : UpToAll (2 ^ a) box) (ho : UpToAll (2 ^ a) r.origin) (hd : AllFinite r.direction)
    (h0 : ∀ i, r.direction.toReal i = 0 ∨ 2 ^ (-b) ≤ |r.direction.toReal i|) (hR : Room S a 2) (hR' : Room S (a + b) 2) :
    RayFinite2 box r := by
  rw [BoundingBox2.upToAll, Point2.upToAll, Point2.upToAll] at hb
  rw [Point2.upToAll] at ho
  rw [Vector2.allFinite] at hd
  have su : ∀ {x y : S}, UpTo (2 ^ a) x → UpTo (2 ^ a) y → UpTo ((2 : ℕ) * 2 ^ a) (x - y) :=
    fun hx hy => (hx.pow.sub hy.pow hR).eq (by norm_num)
  have key : ∀ {lo hi o d : S}, UpTo (2 ^ a) lo → UpTo (2 ^ a) hi → UpTo (2 ^ a) o → IsFinite d → (real d = 0 ∨ 2 ^ (-b) ≤ |real d|) →
      SlabFinite lo hi o d := fun hl hh ho hd h => ⟨(su hl ho).1, (su hh ho).1, hd, fun hn =>
    have h := h.resolve_left hn
    ⟨((su hl ho).div hd h hR').1, ((su hh ho).div hd h hR').1⟩⟩
  exact ⟨key hb.1.1 hb.2.1 ho.1 hd.1 (h0 0), key hb.1.2 hb.2.2 ho.2 hd.2 (h0 1)⟩

/-- **C86**: products of matrices. -/
theorem C86_product3x3 (A B : Matrix3x3 S) (hA : UpToAll (2 ^ a) A) (hB : UpToAll (2 ^ b) B) (hR : Room S (a + b) 3) :
    UpToAll (3 * 2 ^ (a + b)) (A * B) := by
  rw [Matrix3x3.upToAll, forall_lt_9] at hA hB ⊢
  obtain ⟨h0, h1, h2, h3, h4, h5, h6, h7, h8⟩ := hA
  obtain ⟨g0, g1, g2, g3, g4, g5, g6, g7, g8⟩ := hB
  have d : ∀ {p q r w0 w1 w2 : S}, UpTo (2 ^ a) p → UpTo (2 ^ a) q → UpTo (2 ^ a) r → UpTo (2 ^ b) w0 → UpTo (2 ^ b) w1 → UpTo (2 ^ b) w2 →
      UpTo (3 * 2 ^ (a + b)) (p * w0 + q * w1 + r * w2) :=
    fun hp hq hr hw0 hw1 hw2 => (UpTo.dot3 hp.pow hq.pow hr.pow hw0.pow hw1.pow hw2.pow hR).eq (by norm_num)
  exact ⟨d h0 h1 h2 g0 g3 g6, d h0 h1 h2 g1 g4 g7, d h0 h1 h2 g2 g5 g8, d h3 h4 h5 g0 g3 g6, d h3 h4 h5 g1 g4 g7, d h3 h4 h5 g2 g5 g8, d h6 h7 h8 g0 g3 g6, d h6 h7 h8 g1 g4 g7, d h6 h7 h8 g2 g5 g8⟩

/-- **C86**: transformed vectors. -/
theorem C86_vector2 (t : Transform2 S) (v : Vector2 S) (hA : ∀ i j : Fin 2, UpTo (2 ^ a) (t.forward.m[3 * i.val + j.val]))
    (hv : UpToAll (2 ^ b) v) (hR : Room S (a + b) 2) : UpToAll (2 * 2 ^ (a + b)) (Transform.transform t v : Vector2 S) := by
  rw [Vector2.upToAll] at hv ⊢
  have d : ∀ {p q w0 w1 : S}, UpTo (2 ^ a) p → UpTo (2 ^ a) q → UpTo (2 ^ b) w0 → UpTo (2 ^ b) w1 →
      UpTo ((2 : ℕ) * 2 ^ (a + b)) (p * w0 + q * w1) :=
    fun hp hq hw0 hw1 => (UpTo.dot2 hp.pow hq.pow hw0.pow hw1.pow (hR.mono (by norm_num))).eq (by norm_num)
  refine ⟨?_, ?_⟩
  · exact (d (hA 0 0) (hA 0 1) hv.1 hv.2).eq (by norm_num)
  · exact (d (hA 1 0) (hA 1 1) hv.1 hv.2).eq (by norm_num)

/-- **C86**: transformed points. -/
theorem C86_point2 (t : Transform2 S) (p : Point2 S) (hF : AllFinite t.forward) (haff : t.forward.toReal 2 = ![0, 0, 1])
    (hA : ∀ i j : Fin 2, UpTo (2 ^ a) (t.forward.m[3 * i.val + j.val]))
    (ho : ∀ i : Fin 2, UpTo (2 ^ (a + b)) (t.forward.m[3 * i.val + 2]))
    (hv : UpToAll (2 ^ b) p) (hR : Room S (a + b) 3) : UpToAll (3 * 2 ^ (a + b)) (Transform.transform t p : Point2 S) := by
  rw [Point2.upToAll] at hv ⊢
  rw [Matrix3x3.allFinite, forall_lt_9] at hF
  obtain ⟨h0, h1, h2, h3, h4, h5, h6, h7, h8⟩ := hF
  have hw := weight_one2 h6 h7 h8 hv.1.1 hv.2.1 (congrFun haff 0) (congrFun haff 1) (congrFun haff 2)
  have d : ∀ {p q w0 w1 : S}, UpTo (2 ^ a) p → UpTo (2 ^ a) q → UpTo (2 ^ b) w0 → UpTo (2 ^ b) w1 →
      UpTo ((2 : ℕ) * 2 ^ (a + b)) (p * w0 + q * w1) :=
    fun hp hq hw0 hw1 => (UpTo.dot2 hp.pow hq.pow hw0.pow hw1.pow (hR.mono (by norm_num))).eq (by norm_num)
  have e : ∀ {x y : S}, UpTo ((2 : ℕ) * 2 ^ (a + b)) x → UpTo (2 ^ (a + b)) y → UpTo (3 * 2 ^ (a + b)) (x + y) :=
    fun hx hy => (hx.add hy.pow (hR.mono (by norm_num))).eq (by norm_num)
  refine ⟨?_, ?_⟩
  · exact (e (d (hA 0 0) (hA 0 1) hv.1 hv.2) (ho 0)).num (div_weight hw)
  · exact (e (d (hA 1 0) (hA 1 1) hv.1 hv.2) (ho 1)).num (div_weight hw)

/-! ### 3D -/

/-- **C86**: sums and differences. -/
theorem C86_sum3 (u v : Vector3 S) (p q : Point3 S) (hu : UpToAll (2 ^ k) u) (hv : UpToAll (2 ^ k) v) (hp : UpToAll (2 ^ k) p)
    (hq : UpToAll (2 ^ k) q) (hR : Room S k 2) :
    UpToAll (2 * 2 ^ k) (u + v) ∧ UpToAll (2 * 2 ^ k) (u - v) ∧ UpToAll (2 * 2 ^ k) (p + v) ∧ UpToAll (2 * 2 ^ k) (p - v) ∧
    UpToAll (2 * 2 ^ k) (p - q : Vector3 S) := by
  rw [Vector3.upToAll] at hu hv
  rw [Point3.upToAll] at hp hq
  have ad : ∀ {x y : S}, UpTo (2 ^ k) x → UpTo (2 ^ k) y → UpTo (2 * 2 ^ k) (x + y) :=
    fun hx hy => (hx.pow.add hy.pow hR).eq (by norm_num)
  have su : ∀ {x y : S}, UpTo (2 ^ k) x → UpTo (2 ^ k) y → UpTo (2 * 2 ^ k) (x - y) :=
    fun hx hy => (hx.pow.sub hy.pow hR).eq (by norm_num)
  exact ⟨Vector3.upToAll.2 ⟨ad hu.1 hv.1, ad hu.2.1 hv.2.1, ad hu.2.2 hv.2.2⟩,
    Vector3.upToAll.2 ⟨su hu.1 hv.1, su hu.2.1 hv.2.1, su hu.2.2 hv.2.2⟩,
    Point3.upToAll.2 ⟨ad hp.1 hv.1, ad hp.2.1 hv.2.1, ad hp.2.2 hv.2.2⟩,
    Point3.upToAll.2 ⟨su hp.1 hv.1, su hp.2.1 hv.2.1, su hp.2.2 hv.2.2⟩,
    Vector3.upToAll.2 ⟨su hp.1 hq.1, su hp.2.1 hq.2.1, su hp.2.2 hq.2.2⟩⟩

/-- **C86**: multiples and quotients. -/
theorem C86_multiple3 (v : Vector3 S) (s : S) (hv : UpToAll (2 ^ a) v) (hR : Room S (a + b) 1) :
    (UpTo (2 ^ b) s → UpToAll (2 ^ (a + b)) (v * s)) ∧
    (IsFinite s → 2 ^ (-b) ≤ |real s| → UpToAll (2 ^ (a + b)) (v / s)) := by
  rw [Vector3.upToAll] at hv
  refine ⟨fun hs => Vector3.upToAll.2 ?_, fun hs h0 => Vector3.upToAll.2 ?_⟩
  · have mu : ∀ {x : S}, UpTo (2 ^ a) x → UpTo (2 ^ (a + b)) (x * s) :=
      fun hx => (hx.pow.mul hs.pow hR).eq (by norm_num)
    exact ⟨mu hv.1, mu hv.2.1, mu hv.2.2⟩
  · have di : ∀ {x : S}, UpTo (2 ^ a) x → UpTo (2 ^ (a + b)) (x / s) :=
      fun hx => (hx.pow.div hs h0 hR).eq (by norm_num)
    exact ⟨di hv.1, di hv.2.1, di hv.2.2⟩

/-- **C86**: inner products. -/
theorem C86_dot3 (u v : Vector3 S) (hu : UpToAll (2 ^ a) u) (hv : UpToAll (2 ^ b) v) (hR : Room S (a + b) 3) :
    UpTo (3 * 2 ^ (a + b)) (Api.dot u v) := by
  rw [Vector3.upToAll] at hu hv
  exact (UpTo.dot3 hu.1.pow hu.2.1.pow hu.2.2.pow hv.1.pow hv.2.1.pow hv.2.2.pow hR).eq (by norm_num)
/-- **C86**: lengths. -/
theorem C86_length3 (v : Vector3 S) (hv : UpToAll (2 ^ k) v) (hR : Room S (2 * k) 3) (hR' : Room S k 2) :
    UpTo (2 * 2 ^ k) (Api.length v) := by
  rw [Vector3.upToAll] at hv
  rw [two_mul] at hR
  have := UpTo.dot3 hv.1.pow hv.2.1.pow hv.2.2.pow hv.1.pow hv.2.1.pow hv.2.2.pow hR
  rw [← two_mul k] at this
  exact (this.sqrt (N := 2) (real_sq_nonneg3 this.1) (by norm_num) hR').eq (by norm_num)
/-- **C86**: distances. -/
theorem C86_distance3 (p q : Point3 S) (hp : UpToAll (2 ^ k) p) (hq : UpToAll (2 ^ k) q) (hR : Room S (2 * k) 12)
    (hR' : Room S k 4) : UpTo (4 * 2 ^ k) (Api.distance p q) := by
  have hv := Vector3.upToAll.1 (C86_sum3 Vector3.zero Vector3.zero q p (Vector3.upToAll.2 ⟨upTo_zero (Fmt.z_pos k).le, upTo_zero (Fmt.z_pos k).le, upTo_zero (Fmt.z_pos k).le⟩) (Vector3.upToAll.2 ⟨upTo_zero (Fmt.z_pos k).le, upTo_zero (Fmt.z_pos k).le, upTo_zero (Fmt.z_pos k).le⟩) hq hp (hR'.mono (by norm_num))).2.2.2.2
  rw [two_mul] at hR
  have e : ∀ {x : S}, UpTo (2 * 2 ^ k) x → UpTo ((2 : ℕ) * 2 ^ k) x := fun h => h.eq (by norm_num)
  have := UpTo.dot3 (e hv.1) (e hv.2.1) (e hv.2.2) (e hv.1) (e hv.2.1) (e hv.2.2) (hR.mono (by norm_num))
  rw [← two_mul k] at this
  exact (this.sqrt (N := 4) (real_sq_nonneg3 this.1) (by norm_num) hR').eq (by norm_num)

/-- **C86**: cross products. -/
theorem C86_cross3 (u v : Vector3 S) (hu : UpToAll (2 ^ a) u) (hv : UpToAll (2 ^ b) v) (hR : Room S (a + b) 2) :
    UpToAll (2 * 2 ^ (a + b)) (Api.cross u v : Vector3 S) := by
  rw [Vector3.upToAll] at hu hv
  have tw : ∀ {p q r s : S}, UpTo (2 ^ a) p → UpTo (2 ^ b) q → UpTo (2 ^ a) r → UpTo (2 ^ b) s → UpTo (2 * 2 ^ (a + b)) (p * q - r * s) :=
    fun hp hq hr hs => (UpTo.two hp.pow hr.pow hq.pow hs.pow hR).eq (by norm_num)
  exact Vector3.upToAll.2 ⟨tw hu.2.1 hv.2.2 hu.2.2 hv.2.1, tw hu.2.2 hv.1 hu.1 hv.2.2, tw hu.1 hv.2.1 hu.2.1 hv.1⟩

/-- **C86**: points of a ray. -/
theorem C86_at3 (r : Ray3 S) (s : S) (ho : UpToAll (2 ^ (a + b)) r.origin) (hd : UpToAll (2 ^ a) r.direction)
    (hs : UpTo (2 ^ b) s) (hR : Room S (a + b) 2) : UpToAll (2 * 2 ^ (a + b)) (r.at s) := by
  rw [Point3.upToAll] at ho
  rw [Vector3.upToAll] at hd
  have key : ∀ {x y : S}, UpTo (2 ^ (a + b)) x → UpTo (2 ^ a) y → UpTo (2 * 2 ^ (a + b)) (x + y * s) := fun hx hy =>
    (hx.pow.add (((hy.pow.mul hs.pow (hR.mono (by norm_num)))).eq (by norm_num)).pow hR).eq (by norm_num)
  exact Point3.upToAll.2 ⟨key ho.1 hd.1, key ho.2.1 hd.2.1, key ho.2.2 hd.2.2⟩

/-- **C86**: extents, surface area, volume and center of a box. -/
theorem C86_box3 (b : BoundingBox3 S) (hb : UpToAll (2 ^ k) b) (hR : Room S k 2) :
    UpTo (2 * 2 ^ k) b.width ∧ UpTo (2 * 2 ^ k) b.height ∧ UpTo (2 * 2 ^ k) b.depth ∧
    UpToAll (2 * 2 ^ k) b.diagonal ∧ (Room S (k - 1) 2 → UpToAll (2 * 2 ^ k) b.center) ∧
    (Room S (2 * k) 24 → UpTo (24 * 2 ^ (2 * k)) b.surfaceArea) ∧
    (Room S (2 * k) 4 → Room S (3 * k) 8 → UpTo (8 * 2 ^ (3 * k)) b.volume) := by
  rw [BoundingBox3.upToAll, Point3.upToAll, Point3.upToAll] at hb
  obtain ⟨hm, hM⟩ := hb
  have su : ∀ {x y : S}, UpTo (2 ^ k) x → UpTo (2 ^ k) y → UpTo (2 * 2 ^ k) (x - y) :=
    fun hx hy => (hx.pow.sub hy.pow hR).eq (by norm_num)
  have ce : ∀ {x y : S}, Room S (k - 1) 2 → UpTo (2 ^ k) x → UpTo (2 * 2 ^ k) y → UpTo (2 * 2 ^ k) (x + y * half) := fun hR' hx hy => by
    have h1 := UpTo.mul (M := 2) (e := k) (hy.eq (by norm_num)) upTo_half hR'
    have h2 : UpTo ((1 : ℕ) * 2 ^ k) (_ * half) := h1.eq (by
      rw [Fmt.z_add]; push_cast; rw [zpow_neg_one]; ring)
    exact (hx.pow.add h2 hR).eq (by norm_num)
  have n2 : ∀ {x : S}, UpTo (2 * 2 ^ k) x → UpTo ((2 : ℕ) * 2 ^ k) x := fun h => h.eq (by norm_num)
  have w0 : UpTo (2 * 2 ^ k) b.width := su hM.1 hm.1
  have w1 : UpTo (2 * 2 ^ k) b.height := su hM.2.1 hm.2.1
  have w2 : UpTo (2 * 2 ^ k) b.depth := su hM.2.2 hm.2.2
  refine ⟨w0, w1, w2, Vector3.upToAll.2 ⟨w0, w1, w2⟩, fun h => Point3.upToAll.2 ⟨ce h hm.1 w0, ce h hm.2.1 w1, ce h hm.2.2 w2⟩, fun h => ?_, fun h h' => ?_⟩
  · rw [two_mul] at h
    have pr : ∀ {x y : S}, UpTo (2 * 2 ^ k) x → UpTo (2 * 2 ^ k) y → UpTo ((4 : ℕ) * 2 ^ (k + k)) (x * y) :=
      fun hx hy => ((n2 hx).mul (n2 hy) (h.mono (by norm_num))).eq (by norm_num)
    have h1 := ((pr w0 w1).add (pr w0 w2) (h.mono (by norm_num))).add (pr w1 w2) (h.mono (by norm_num))
    exact (upTo_two.mul h1 (by rw [zero_add]; exact h.mono (by norm_num))).eq (by rw [zero_add, show k + k = 2 * k by ring]; norm_num)
  · rw [two_mul] at h
    exact (((n2 w0).mul (n2 w1) h).mul (n2 w2) (by rw [show k + k + k = 3 * k by ring]; exact h')).eq
      (by rw [show k + k + k = 3 * k by ring]; norm_num)

omit [Binary S] in
theorem BoundingBox3.new_upTo {B : ℝ} {p q : Point3 S} (hp : UpToAll B p) (hq : UpToAll B q) : UpToAll B (BoundingBox3.new p q) := by
  rw [Point3.upToAll] at hp hq
  exact BoundingBox3.upToAll.2 ⟨Point3.upToAll.2 ⟨UpTo.min hp.1 hq.1, UpTo.min hp.2.1 hq.2.1, UpTo.min hp.2.2 hq.2.2⟩, Point3.upToAll.2 ⟨UpTo.max hp.1 hq.1, UpTo.max hp.2.1 hq.2.1, UpTo.max hp.2.2 hq.2.2⟩⟩
omit [Binary S] in
/-- **C86**: bounding boxes, unions and intersections have no coordinates but those they are made of. -/
theorem C86_union3 {B : ℝ} (b c : BoundingBox3 S) (p q : Point3 S) (hb : UpToAll B b) (hc : UpToAll B c) (hp : UpToAll B p)
    (hq : UpToAll B q) : UpToAll B (BoundingBox3.new p q) ∧ UpToAll B (Api.union b c : BoundingBox3 S) ∧ UpToAll B (Api.union b p : BoundingBox3 S) ∧
    ∀ r, Api.intersect b c = some r → UpToAll B (r : BoundingBox3 S) := by
  rw [BoundingBox3.upToAll] at hb hc
  have mi : ∀ {p q : Point3 S}, UpToAll B p → UpToAll B q → UpToAll B (Api.min p q) := fun hp hq => (BoundingBox3.upToAll.1 (BoundingBox3.new_upTo hp hq)).1
  have ma : ∀ {p q : Point3 S}, UpToAll B p → UpToAll B q → UpToAll B (Api.max p q) := fun hp hq => (BoundingBox3.upToAll.1 (BoundingBox3.new_upTo hp hq)).2
  refine ⟨BoundingBox3.new_upTo hp hq, BoundingBox3.new_upTo (mi hb.1 hc.1) (ma hb.2 hc.2), BoundingBox3.new_upTo (mi hb.1 hp) (ma hb.2 hp), fun r h => ?_⟩
  simp only [Api.intersect, BoxIntersection.intersect] at h
  split at h
  · cases h
    exact BoundingBox3.new_upTo (ma hb.1 hc.1) (mi hb.2 hc.2)
  · cases h

/-- **C86**: if box and ray origin are at most `2^a` in size and each direction coordinate is zero or at least `2^-b`,
nothing overflows in the slab test, which is what C65 and C83 ask. -/
theorem C86_ray3 (box : BoundingBox3 S) (r : Ray3 S) (hb : UpToAll (2 ^ a) box) (ho : UpToAll (2 ^ a) r.origin) (hd : AllFinite r.direction)
    (h0 : ∀ i, r.direction.toReal i = 0 ∨ 2 ^ (-b) ≤ |r.direction.toReal i|) (hR : Room S a 2) (hR' : Room S (a + b) 2) :
    RayFinite3 box r := by
  rw [BoundingBox3.upToAll, Point3.upToAll, Point3.upToAll] at hb
  rw [Point3.upToAll] at ho
  rw [Vector3.allFinite] at hd
  have su : ∀ {x y : S}, UpTo (2 ^ a) x → UpTo (2 ^ a) y → UpTo ((2 : ℕ) * 2 ^ a) (x - y) :=
    fun hx hy => (hx.pow.sub hy.pow hR).eq (by norm_num)
  have key : ∀ {lo hi o d : S}, UpTo (2 ^ a) lo → UpTo (2 ^ a) hi → UpTo (2 ^ a) o → IsFinite d → (real d = 0 ∨ 2 ^ (-b) ≤ |real d|) →
      SlabFinite lo hi o d := fun hl hh ho hd h => ⟨(su hl ho).1, (su hh ho).1, hd, fun hn =>
    have h := h.resolve_left hn
    ⟨((su hl ho).div hd h hR').1, ((su hh ho).div hd h hR').1⟩⟩
  exact ⟨key hb.1.1 hb.2.1 ho.1 hd.1 (h0 0), key hb.1.2.1 hb.2.2.1 ho.2.1 hd.2.1 (h0 1), key hb.1.2.2 hb.2.2.2 ho.2.2 hd.2.2 (h0 2)⟩

/-- **C86**: products of matrices. -/
theorem C86_product4x4 (A B : Matrix4x4 S) (hA : UpToAll (2 ^ a) A) (hB : UpToAll (2 ^ b) B) (hR : Room S (a + b) 4) :
    UpToAll (4 * 2 ^ (a + b)) (A * B) := by
  rw [Matrix4x4.upToAll, forall_lt_16] at hA hB ⊢
  obtain ⟨h0, h1, h2, h3, h4, h5, h6, h7, h8, h9, h10, h11, h12, h13, h14, h15⟩ := hA
  obtain ⟨g0, g1, g2, g3, g4, g5, g6, g7, g8, g9, g10, g11, g12, g13, g14, g15⟩ := hB
  have d : ∀ {p q r s w0 w1 w2 w3 : S}, UpTo (2 ^ a) p → UpTo (2 ^ a) q → UpTo (2 ^ a) r → UpTo (2 ^ a) s → UpTo (2 ^ b) w0 → UpTo (2 ^ b) w1 → UpTo (2 ^ b) w2 → UpTo (2 ^ b) w3 →
      UpTo (4 * 2 ^ (a + b)) (p * w0 + q * w1 + r * w2 + s * w3) :=
    fun hp hq hr hs hw0 hw1 hw2 hw3 => (UpTo.dot4 hp.pow hq.pow hr.pow hs.pow hw0.pow hw1.pow hw2.pow hw3.pow hR).eq (by norm_num)
  exact ⟨d h0 h1 h2 h3 g0 g4 g8 g12, d h0 h1 h2 h3 g1 g5 g9 g13, d h0 h1 h2 h3 g2 g6 g10 g14, d h0 h1 h2 h3 g3 g7 g11 g15, d h4 h5 h6 h7 g0 g4 g8 g12, d h4 h5 h6 h7 g1 g5 g9 g13, d h4 h5 h6 h7 g2 g6 g10 g14, d h4 h5 h6 h7 g3 g7 g11 g15, d h8 h9 h10 h11 g0 g4 g8 g12, d h8 h9 h10 h11 g1 g5 g9 g13, d h8 h9 h10 h11 g2 g6 g10 g14, d h8 h9 h10 h11 g3 g7 g11 g15, d h12 h13 h14 h15 g0 g4 g8 g12, d h12 h13 h14 h15 g1 g5 g9 g13, d h12 h13 h14 h15 g2 g6 g10 g14, d h12 h13 h14 h15 g3 g7 g11 g15⟩

/-- **C86**: transformed vectors. -/
theorem C86_vector3 (t : Transform3 S) (v : Vector3 S) (hA : ∀ i j : Fin 3, UpTo (2 ^ a) (t.forward.m[4 * i.val + j.val]))
    (hv : UpToAll (2 ^ b) v) (hR : Room S (a + b) 3) : UpToAll (3 * 2 ^ (a + b)) (Transform.transform t v : Vector3 S) := by
  rw [Vector3.upToAll] at hv ⊢
  have d : ∀ {p q r w0 w1 w2 : S}, UpTo (2 ^ a) p → UpTo (2 ^ a) q → UpTo (2 ^ a) r → UpTo (2 ^ b) w0 → UpTo (2 ^ b) w1 → UpTo (2 ^ b) w2 →
      UpTo ((3 : ℕ) * 2 ^ (a + b)) (p * w0 + q * w1 + r * w2) :=
    fun hp hq hr hw0 hw1 hw2 => (UpTo.dot3 hp.pow hq.pow hr.pow hw0.pow hw1.pow hw2.pow (hR.mono (by norm_num))).eq (by norm_num)
  refine ⟨?_, ?_, ?_⟩
  · exact (d (hA 0 0) (hA 0 1) (hA 0 2) hv.1 hv.2.1 hv.2.2).eq (by norm_num)
  · exact (d (hA 1 0) (hA 1 1) (hA 1 2) hv.1 hv.2.1 hv.2.2).eq (by norm_num)
  · exact (d (hA 2 0) (hA 2 1) (hA 2 2) hv.1 hv.2.1 hv.2.2).eq (by norm_num)

/-- **C86**: transformed points. -/
theorem C86_point3 (t : Transform3 S) (p : Point3 S) (hF : AllFinite t.forward) (haff : t.forward.toReal 3 = ![0, 0, 0, 1])
    (hA : ∀ i j : Fin 3, UpTo (2 ^ a) (t.forward.m[4 * i.val + j.val]))
    (ho : ∀ i : Fin 3, UpTo (2 ^ (a + b)) (t.forward.m[4 * i.val + 3]))
    (hv : UpToAll (2 ^ b) p) (hR : Room S (a + b) 4) : UpToAll (4 * 2 ^ (a + b)) (Transform.transform t p : Point3 S) := by
  rw [Point3.upToAll] at hv ⊢
  rw [Matrix4x4.allFinite, forall_lt_16] at hF
  obtain ⟨h0, h1, h2, h3, h4, h5, h6, h7, h8, h9, h10, h11, h12, h13, h14, h15⟩ := hF
  have hw := weight_one3 h12 h13 h14 h15 hv.1.1 hv.2.1.1 hv.2.2.1 (congrFun haff 0) (congrFun haff 1) (congrFun haff 2) (congrFun haff 3)
  have d : ∀ {p q r w0 w1 w2 : S}, UpTo (2 ^ a) p → UpTo (2 ^ a) q → UpTo (2 ^ a) r → UpTo (2 ^ b) w0 → UpTo (2 ^ b) w1 → UpTo (2 ^ b) w2 →
      UpTo ((3 : ℕ) * 2 ^ (a + b)) (p * w0 + q * w1 + r * w2) :=
    fun hp hq hr hw0 hw1 hw2 => (UpTo.dot3 hp.pow hq.pow hr.pow hw0.pow hw1.pow hw2.pow (hR.mono (by norm_num))).eq (by norm_num)
  have e : ∀ {x y : S}, UpTo ((3 : ℕ) * 2 ^ (a + b)) x → UpTo (2 ^ (a + b)) y → UpTo (4 * 2 ^ (a + b)) (x + y) :=
    fun hx hy => (hx.add hy.pow (hR.mono (by norm_num))).eq (by norm_num)
  refine ⟨?_, ?_, ?_⟩
  · exact (e (d (hA 0 0) (hA 0 1) (hA 0 2) hv.1 hv.2.1 hv.2.2) (ho 0)).num (div_weight hw)
  · exact (e (d (hA 1 0) (hA 1 1) (hA 1 2) hv.1 hv.2.1 hv.2.2) (ho 1)).num (div_weight hw)
  · exact (e (d (hA 2 0) (hA 2 1) (hA 2 2) hv.1 hv.2.1 hv.2.2) (ho 2)).num (div_weight hw)

end VecMath

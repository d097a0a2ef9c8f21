import Verif.Lemmas.Walk
import Verif.Props.FloatCosine
import Verif.Props.FloatBox
import Verif.Props.FloatExamples
/-!
# Histories of additions and subtractions (layer F): C91

Points and vectors changed step by step with `+=` and `-=`, any number of times, and means of any number of vectors.
Generated by tools/gen/walk.py.
-/

open Classical
set_option linter.unusedSectionVars false

namespace VecMath
open Scalar IEEE
variable {S : Type} [Scalar S] [IEEE S] [Binary S]

/-- the coordinates of a walk -/
theorem Point2.walk_coords (p : Point2 S) (l : List (Step (Vector2 S))) :
    (walk p l).x = walk p.x (l.map (Step.map (·.x))) ∧ (walk p l).y = walk p.y (l.map (Step.map (·.y))) :=
  ⟨walk_coord (fun p : Point2 S => p.x) (fun v : Vector2 S => v.x) (fun _ _ => rfl) (fun _ _ => rfl) p l, walk_coord (fun p : Point2 S => p.y) (fun v : Vector2 S => v.y) (fun _ _ => rfl) (fun _ _ => rfl) p l⟩
/-- **C91**: executing the steps in place (`+=`, `-=`) is the same. -/
theorem C91_in_place_point2 (p : Point2 S) (l : List (Step (Vector2 S))) :
    l.foldl (fun q s => match s with | .plus v => q.addAssign v | .minus v => q.subAssign v) p = walk p l := by
  unfold walk
  congr 1
  funext q s
  cases s <;> rfl
/-- **C91**: after any number `n` of additions and subtractions, each coordinate is within `((1+u)^n - 1)` of the exact
one, relative to where it started plus the total way. Nothing is lost to underflow. -/
theorem C91_walk_point2 (p : Point2 S) (l : List (Step (Vector2 S))) (h : AllFinite (walk p l)) (i : Fin 2) :
    |(walk p l).toReal i - (p.toReal i + moved (fun v => v.toReal i) l)| ≤
      ((1 + uro S) ^ l.length - 1) * (|p.toReal i| + travelled (fun v => v.toReal i) l) := by
  rw [Point2.allFinite] at h
  obtain ⟨ex, ey⟩ := Point2.walk_coords p l
  fin_cases i
  · have := walk_err (ex ▸ h.1)
    rw [moved_map, travelled_map, List.length_map, ← ex] at this
    exact this
  · have := walk_err (ey ▸ h.2)
    rw [moved_map, travelled_map, List.length_map, ← ey] at this
    exact this
/-- **C91**: on a grid (integers, multiples of a power of two) with room for the whole way every history is exact. -/
theorem C91_exact_point2 {e : ℤ} {N : ℕ} (p : Point2 S) (l : List (Step (Vector2 S))) (hp : AllFinite p) (hl : ∀ s ∈ l, AllFinite s.vec) (hF : Fits S e N)
    (gp : ∀ i, ∃ M, OnGrid e M (p.toReal i)) (gl : ∀ s ∈ l, ∀ i, ∃ M, OnGrid e M (s.vec.toReal i))
    (hN : ∀ i, |p.toReal i| + travelled (fun v => v.toReal i) l ≤ N * 2 ^ e) :
    AllFinite (walk p l) ∧ ∀ i, (walk p l).toReal i = p.toReal i + moved (fun v => v.toReal i) l := by
  rw [Point2.allFinite] at hp ⊢
  have hl' : ∀ s ∈ l, IsFinite s.vec.x ∧ IsFinite s.vec.y := fun s hs => Vector2.allFinite.1 (hl s hs)
  obtain ⟨ex, ey⟩ := Point2.walk_coords p l
  have vm : ∀ (f : Vector2 S → S) (s : Step (Vector2 S)), (s.map f).vec = f s.vec := fun f s => by cases s <;> rfl
  have kx : Exactly (walk p.x (l.map (Step.map (·.x)))) (real p.x + moved (fun v => v.toReal 0) l) := by
    have := walk_grid (l := l.map (Step.map (fun v : Vector2 S => v.x))) hp.1
      (by intro s hs; obtain ⟨s, h, rfl⟩ := List.mem_map.1 hs; rw [vm]; exact (hl' s h).1)
      (gp 0) (by intro s hs; obtain ⟨s, h, rfl⟩ := List.mem_map.1 hs; rw [vm]; exact gl s h 0) hF
      (by rw [travelled_map]; exact hN 0)
    rw [moved_map] at this
    exact this
  have ky : Exactly (walk p.y (l.map (Step.map (·.y)))) (real p.y + moved (fun v => v.toReal 1) l) := by
    have := walk_grid (l := l.map (Step.map (fun v : Vector2 S => v.y))) hp.2
      (by intro s hs; obtain ⟨s, h, rfl⟩ := List.mem_map.1 hs; rw [vm]; exact (hl' s h).2)
      (gp 1) (by intro s hs; obtain ⟨s, h, rfl⟩ := List.mem_map.1 hs; rw [vm]; exact gl s h 1) hF
      (by rw [travelled_map]; exact hN 1)
    rw [moved_map] at this
    exact this
  rw [← ex] at kx
  rw [← ey] at ky
  refine ⟨⟨kx.1, ky.1⟩, fun i => ?_⟩
  fin_cases i
  · exact kx.2
  · exact ky.2
/-- **C91**: if no step moves a coordinate down (up), the coordinate never ends up lower (higher) than it started. -/
theorem C91_monotone_point2 (p : Point2 S) (l : List (Step (Vector2 S))) (h : AllFinite (walk p l)) (i : Fin 2) :
    ((∀ s ∈ l, 0 ≤ s.signed fun v => v.toReal i) → p.toReal i ≤ (walk p l).toReal i) ∧
    ((∀ s ∈ l, (s.signed fun v => v.toReal i) ≤ 0) → (walk p l).toReal i ≤ p.toReal i) := by
  rw [Point2.allFinite] at h
  obtain ⟨ex, ey⟩ := Point2.walk_coords p l
  have sm : ∀ (f : Vector2 S → S) (s : Step (Vector2 S)), (s.map f).signed real = s.signed fun v => real (f v) := fun f s => by cases s <;> rfl
  fin_cases i
  · have hf := ex ▸ h.1
    refine ⟨fun hl => ?_, fun hl => ?_⟩
    · have := walk_mono hf (by intro s hs; obtain ⟨s, h, rfl⟩ := List.mem_map.1 hs; rw [sm]; exact hl s h)
      rw [← ex] at this; exact this
    · have := walk_anti hf (by intro s hs; obtain ⟨s, h, rfl⟩ := List.mem_map.1 hs; rw [sm]; exact hl s h)
      rw [← ex] at this; exact this
  · have hf := ey ▸ h.2
    refine ⟨fun hl => ?_, fun hl => ?_⟩
    · have := walk_mono hf (by intro s hs; obtain ⟨s, h, rfl⟩ := List.mem_map.1 hs; rw [sm]; exact hl s h)
      rw [← ey] at this; exact this
    · have := walk_anti hf (by intro s hs; obtain ⟨s, h, rfl⟩ := List.mem_map.1 hs; rw [sm]; exact hl s h)
      rw [← ey] at this; exact this
/-- **C91**: a step that is too small to move the value never moves it, however often it is repeated. -/
theorem C91_stuck_point2 (p : Point2 S) (v : Vector2 S) (h : (p + v == p) = true) (n : ℕ) :
    (walk p (List.replicate n (Step.plus v)) == p) = true := by
  obtain ⟨ex, ey⟩ := Point2.walk_coords p (List.replicate n (Step.plus v))
  simp only [List.map_replicate, Step.map] at ex ey
  have hb : (p.x + v.x == p.x) = true ∧ (p.y + v.y == p.y) = true := Point2.beq_iff.1 h
  refine Point2.beq_iff.2 ⟨by rw [ex]; exact walk_stuck hb.1 n, by rw [ey]; exact walk_stuck hb.2 n⟩

/-- the coordinates of a walk -/
theorem Vector2.walk_coords (p : Vector2 S) (l : List (Step (Vector2 S))) :
    (walk p l).x = walk p.x (l.map (Step.map (·.x))) ∧ (walk p l).y = walk p.y (l.map (Step.map (·.y))) :=
  ⟨walk_coord (fun p : Vector2 S => p.x) (fun v : Vector2 S => v.x) (fun _ _ => rfl) (fun _ _ => rfl) p l, walk_coord (fun p : Vector2 S => p.y) (fun v : Vector2 S => v.y) (fun _ _ => rfl) (fun _ _ => rfl) p l⟩
/-- **C91**: executing the steps in place (`+=`, `-=`) is the same. -/
theorem C91_in_place_vector2 (p : Vector2 S) (l : List (Step (Vector2 S))) :
    l.foldl (fun q s => match s with | .plus v => q.addAssign v | .minus v => q.subAssign v) p = walk p l := by
  unfold walk
  congr 1
  funext q s
  cases s <;> rfl
/-- **C91**: after any number `n` of additions and subtractions, each coordinate is within `((1+u)^n - 1)` of the exact
one, relative to where it started plus the total way. Nothing is lost to underflow. -/
theorem C91_walk_vector2 (p : Vector2 S) (l : List (Step (Vector2 S))) (h : AllFinite (walk p l)) (i : Fin 2) :
    |(walk p l).toReal i - (p.toReal i + moved (fun v => v.toReal i) l)| ≤
      ((1 + uro S) ^ l.length - 1) * (|p.toReal i| + travelled (fun v => v.toReal i) l) := by
  rw [Vector2.allFinite] at h
  obtain ⟨ex, ey⟩ := Vector2.walk_coords p l
  fin_cases i
  · have := walk_err (ex ▸ h.1)
    rw [moved_map, travelled_map, List.length_map, ← ex] at this
    exact this
  · have := walk_err (ey ▸ h.2)
    rw [moved_map, travelled_map, List.length_map, ← ey] at this
    exact this
/-- **C91**: on a grid (integers, multiples of a power of two) with room for the whole way every history is exact. -/
theorem C91_exact_vector2 {e : ℤ} {N : ℕ} (p : Vector2 S) (l : List (Step (Vector2 S))) (hp : AllFinite p) (hl : ∀ s ∈ l, AllFinite s.vec) (hF : Fits S e N)
    (gp : ∀ i, ∃ M, OnGrid e M (p.toReal i)) (gl : ∀ s ∈ l, ∀ i, ∃ M, OnGrid e M (s.vec.toReal i))
    (hN : ∀ i, |p.toReal i| + travelled (fun v => v.toReal i) l ≤ N * 2 ^ e) :
    AllFinite (walk p l) ∧ ∀ i, (walk p l).toReal i = p.toReal i + moved (fun v => v.toReal i) l := by
  rw [Vector2.allFinite] at hp ⊢
  have hl' : ∀ s ∈ l, IsFinite s.vec.x ∧ IsFinite s.vec.y := fun s hs => Vector2.allFinite.1 (hl s hs)
  obtain ⟨ex, ey⟩ := Vector2.walk_coords p l
  have vm : ∀ (f : Vector2 S → S) (s : Step (Vector2 S)), (s.map f).vec = f s.vec := fun f s => by cases s <;> rfl
  have kx : Exactly (walk p.x (l.map (Step.map (·.x)))) (real p.x + moved (fun v => v.toReal 0) l) := by
    have := walk_grid (l := l.map (Step.map (fun v : Vector2 S => v.x))) hp.1
      (by intro s hs; obtain ⟨s, h, rfl⟩ := List.mem_map.1 hs; rw [vm]; exact (hl' s h).1)
      (gp 0) (by intro s hs; obtain ⟨s, h, rfl⟩ := List.mem_map.1 hs; rw [vm]; exact gl s h 0) hF
      (by rw [travelled_map]; exact hN 0)
    rw [moved_map] at this
    exact this
  have ky : Exactly (walk p.y (l.map (Step.map (·.y)))) (real p.y + moved (fun v => v.toReal 1) l) := by
    have := walk_grid (l := l.map (Step.map (fun v : Vector2 S => v.y))) hp.2
      (by intro s hs; obtain ⟨s, h, rfl⟩ := List.mem_map.1 hs; rw [vm]; exact (hl' s h).2)
      (gp 1) (by intro s hs; obtain ⟨s, h, rfl⟩ := List.mem_map.1 hs; rw [vm]; exact gl s h 1) hF
      (by rw [travelled_map]; exact hN 1)
    rw [moved_map] at this
    exact this
  rw [← ex] at kx
  rw [← ey] at ky
  refine ⟨⟨kx.1, ky.1⟩, fun i => ?_⟩
  fin_cases i
  · exact kx.2
  · exact ky.2
/-- **C91**: if no step moves a coordinate down (up), the coordinate never ends up lower (higher) than it started. -/
theorem C91_monotone_vector2 (p : Vector2 S) (l : List (Step (Vector2 S))) (h : AllFinite (walk p l)) (i : Fin 2) :
    ((∀ s ∈ l, 0 ≤ s.signed fun v => v.toReal i) → p.toReal i ≤ (walk p l).toReal i) ∧
    ((∀ s ∈ l, (s.signed fun v => v.toReal i) ≤ 0) → (walk p l).toReal i ≤ p.toReal i) := by
  rw [Vector2.allFinite] at h
  obtain ⟨ex, ey⟩ := Vector2.walk_coords p l
  have sm : ∀ (f : Vector2 S → S) (s : Step (Vector2 S)), (s.map f).signed real = s.signed fun v => real (f v) := fun f s => by cases s <;> rfl
  fin_cases i
  · have hf := ex ▸ h.1
    refine ⟨fun hl => ?_, fun hl => ?_⟩
    · have := walk_mono hf (by intro s hs; obtain ⟨s, h, rfl⟩ := List.mem_map.1 hs; rw [sm]; exact hl s h)
      rw [← ex] at this; exact this
    · have := walk_anti hf (by intro s hs; obtain ⟨s, h, rfl⟩ := List.mem_map.1 hs; rw [sm]; exact hl s h)
      rw [← ex] at this; exact this
  · have hf := ey ▸ h.2
    refine ⟨fun hl => ?_, fun hl => ?_⟩
    · have := walk_mono hf (by intro s hs; obtain ⟨s, h, rfl⟩ := List.mem_map.1 hs; rw [sm]; exact hl s h)
      rw [← ey] at this; exact this
    · have := walk_anti hf (by intro s hs; obtain ⟨s, h, rfl⟩ := List.mem_map.1 hs; rw [sm]; exact hl s h)
      rw [← ey] at this; exact this
/-- **C91**: a step that is too small to move the value never moves it, however often it is repeated. -/
theorem C91_stuck_vector2 (p : Vector2 S) (v : Vector2 S) (h : (p + v == p) = true) (n : ℕ) :
    (walk p (List.replicate n (Step.plus v)) == p) = true := by
  obtain ⟨ex, ey⟩ := Vector2.walk_coords p (List.replicate n (Step.plus v))
  simp only [List.map_replicate, Step.map] at ex ey
  have hb : (p.x + v.x == p.x) = true ∧ (p.y + v.y == p.y) = true := Vector2.beq_iff.1 h
  refine Vector2.beq_iff.2 ⟨by rw [ex]; exact walk_stuck hb.1 n, by rw [ey]; exact walk_stuck hb.2 n⟩
/-- **C91**: the mean of any number of vectors (added up, then divided by their number) is within `((1+u)^n - 1)` of the
exact mean, relative to the mean magnitude, plus one underflow. -/
theorem C91_mean2 (v : Vector2 S) (l : List (Vector2 S)) (n : S) (hn : Exactly n (l.length + 1)) (h : AllFinite (l.foldl (· + ·) v))
    (hq : AllFinite (l.foldl (· + ·) v / n)) (i : Fin 2) :
    |(l.foldl (· + ·) v / n).toReal i - ((v :: l).map fun w => w.toReal i).sum / (l.length + 1)| ≤
      ((1 + uro S) ^ (l.length + 1) - 1) * (((v :: l).map fun w => |w.toReal i|).sum / (l.length + 1)) + tiny S := by
  have ew : l.foldl (· + ·) v = walk v (l.map Step.plus) := by unfold walk; rw [List.foldl_map]; rfl
  have em : ∀ f : Vector2 S → ℝ, moved f (l.map Step.plus) = (l.map f).sum := fun f => by unfold moved; rw [List.map_map]; rfl
  have et : ∀ f : Vector2 S → ℝ, travelled f (l.map Step.plus) = (l.map fun w => |f w|).sum := fun f => by
    unfold travelled; rw [List.map_map]; rfl
  rw [ew] at h hq ⊢
  rw [Vector2.allFinite] at h hq
  obtain ⟨ex, ey⟩ := Vector2.walk_coords v (l.map Step.plus)
  simp only [List.map_cons, List.sum_cons, ← em fun w => w.toReal i, ← et fun w => w.toReal i]
  fin_cases i
  · have q : IsFinite ((walk v (l.map Step.plus)).x / n) := hq.1
    have k := mean_err (a := v.x) (n := n) (l := (l.map Step.plus).map (Step.map (·.x))) (by simpa using hn)
      (ex ▸ h.1) (ex ▸ q)
    rw [moved_map, travelled_map, ← ex] at k
    simp only [List.length_map] at k
    exact k
  · have q : IsFinite ((walk v (l.map Step.plus)).y / n) := hq.2
    have k := mean_err (a := v.y) (n := n) (l := (l.map Step.plus).map (Step.map (·.y))) (by simpa using hn)
      (ey ▸ h.2) (ey ▸ q)
    rw [moved_map, travelled_map, ← ey] at k
    simp only [List.length_map] at k
    exact k

/-- the coordinates of a walk -/
theorem Point3.walk_coords (p : Point3 S) (l : List (Step (Vector3 S))) :
    (walk p l).x = walk p.x (l.map (Step.map (·.x))) ∧ (walk p l).y = walk p.y (l.map (Step.map (·.y))) ∧ (walk p l).z = walk p.z (l.map (Step.map (·.z))) :=
  ⟨walk_coord (fun p : Point3 S => p.x) (fun v : Vector3 S => v.x) (fun _ _ => rfl) (fun _ _ => rfl) p l, walk_coord (fun p : Point3 S => p.y) (fun v : Vector3 S => v.y) (fun _ _ => rfl) (fun _ _ => rfl) p l, walk_coord (fun p : Point3 S => p.z) (fun v : Vector3 S => v.z) (fun _ _ => rfl) (fun _ _ => rfl) p l⟩
/-- **C91**: executing the steps in place (`+=`, `-=`) is the same. -/
theorem C91_in_place_point3 (p : Point3 S) (l : List (Step (Vector3 S))) :
    l.foldl (fun q s => match s with | .plus v => q.addAssign v | .minus v => q.subAssign v) p = walk p l := by
  unfold walk
  congr 1
  funext q s
  cases s <;> rfl
/-- **C91**: after any number `n` of additions and subtractions, each coordinate is within `((1+u)^n - 1)` of the exact
one, relative to where it started plus the total way. Nothing is lost to underflow. -/
theorem C91_walk_point3 (p : Point3 S) (l : List (Step (Vector3 S))) (h : AllFinite (walk p l)) (i : Fin 3) :
    |(walk p l).toReal i - (p.toReal i + moved (fun v => v.toReal i) l)| ≤
      ((1 + uro S) ^ l.length - 1) * (|p.toReal i| + travelled (fun v => v.toReal i) l) := by
  rw [Point3.allFinite] at h
  obtain ⟨ex, ey, ez⟩ := Point3.walk_coords p l
  fin_cases i
  · have := walk_err (ex ▸ h.1)
    rw [moved_map, travelled_map, List.length_map, ← ex] at this
    exact this
  · have := walk_err (ey ▸ h.2.1)
    rw [moved_map, travelled_map, List.length_map, ← ey] at this
    exact this
  · have := walk_err (ez ▸ h.2.2)
    rw [moved_map, travelled_map, List.length_map, ← ez] at this
    exact this
/-- **C91**: on a grid (integers, multiples of a power of two) with room for the whole way every history is exact. -/
theorem C91_exact_point3 {e : ℤ} {N : ℕ} (p : Point3 S) (l : List (Step (Vector3 S))) (hp : AllFinite p) (hl : ∀ s ∈ l, AllFinite s.vec) (hF : Fits S e N)
    (gp : ∀ i, ∃ M, OnGrid e M (p.toReal i)) (gl : ∀ s ∈ l, ∀ i, ∃ M, OnGrid e M (s.vec.toReal i))
    (hN : ∀ i, |p.toReal i| + travelled (fun v => v.toReal i) l ≤ N * 2 ^ e) :
    AllFinite (walk p l) ∧ ∀ i, (walk p l).toReal i = p.toReal i + moved (fun v => v.toReal i) l := by
  rw [Point3.allFinite] at hp ⊢
  have hl' : ∀ s ∈ l, IsFinite s.vec.x ∧ IsFinite s.vec.y ∧ IsFinite s.vec.z := fun s hs => Vector3.allFinite.1 (hl s hs)
  obtain ⟨ex, ey, ez⟩ := Point3.walk_coords p l
  have vm : ∀ (f : Vector3 S → S) (s : Step (Vector3 S)), (s.map f).vec = f s.vec := fun f s => by cases s <;> rfl
  have kx : Exactly (walk p.x (l.map (Step.map (·.x)))) (real p.x + moved (fun v => v.toReal 0) l) := by
    have := walk_grid (l := l.map (Step.map (fun v : Vector3 S => v.x))) hp.1
      (by intro s hs; obtain ⟨s, h, rfl⟩ := List.mem_map.1 hs; rw [vm]; exact (hl' s h).1)
      (gp 0) (by intro s hs; obtain ⟨s, h, rfl⟩ := List.mem_map.1 hs; rw [vm]; exact gl s h 0) hF
      (by rw [travelled_map]; exact hN 0)
    rw [moved_map] at this
    exact this
  have ky : Exactly (walk p.y (l.map (Step.map (·.y)))) (real p.y + moved (fun v => v.toReal 1) l) := by
    have := walk_grid (l := l.map (Step.map (fun v : Vector3 S => v.y))) hp.2.1
      (by intro s hs; obtain ⟨s, h, rfl⟩ := List.mem_map.1 hs; rw [vm]; exact (hl' s h).2.1)
      (gp 1) (by intro s hs; obtain ⟨s, h, rfl⟩ := List.mem_map.1 hs; rw [vm]; exact gl s h 1) hF
      (by rw [travelled_map]; exact hN 1)
    rw [moved_map] at this
    exact this
  have kz : Exactly (walk p.z (l.map (Step.map (·.z)))) (real p.z + moved (fun v => v.toReal 2) l) := by
    have := walk_grid (l := l.map (Step.map (fun v : Vector3 S => v.z))) hp.2.2
      (by intro s hs; obtain ⟨s, h, rfl⟩ := List.mem_map.1 hs; rw [vm]; exact (hl' s h).2.2)
      (gp 2) (by intro s hs; obtain ⟨s, h, rfl⟩ := List.mem_map.1 hs; rw [vm]; exact gl s h 2) hF
      (by rw [travelled_map]; exact hN 2)
    rw [moved_map] at this
    exact this
  rw [← ex] at kx
  rw [← ey] at ky
  rw [← ez] at kz
  refine ⟨⟨kx.1, ky.1, kz.1⟩, fun i => ?_⟩
  fin_cases i
  · exact kx.2
  · exact ky.2
  · exact kz.2
/-- **C91**: if no step moves a coordinate down (up), the coordinate never ends up lower (higher) than it started. -/
theorem C91_monotone_point3 (p : Point3 S) (l : List (Step (Vector3 S))) (h : AllFinite (walk p l)) (i : Fin 3) :
    ((∀ s ∈ l, 0 ≤ s.signed fun v => v.toReal i) → p.toReal i ≤ (walk p l).toReal i) ∧
    ((∀ s ∈ l, (s.signed fun v => v.toReal i) ≤ 0) → (walk p l).toReal i ≤ p.toReal i) := by
  rw [Point3.allFinite] at h
  obtain ⟨ex, ey, ez⟩ := Point3.walk_coords p l
  have sm : ∀ (f : Vector3 S → S) (s : Step (Vector3 S)), (s.map f).signed real = s.signed fun v => real (f v) := fun f s => by cases s <;> rfl
  fin_cases i
  · have hf := ex ▸ h.1
    refine ⟨fun hl => ?_, fun hl => ?_⟩
    · have := walk_mono hf (by intro s hs; obtain ⟨s, h, rfl⟩ := List.mem_map.1 hs; rw [sm]; exact hl s h)
      rw [← ex] at this; exact this
    · have := walk_anti hf (by intro s hs; obtain ⟨s, h, rfl⟩ := List.mem_map.1 hs; rw [sm]; exact hl s h)
      rw [← ex] at this; exact this
  · have hf := ey ▸ h.2.1
    refine ⟨fun hl => ?_, fun hl => ?_⟩
    · have := walk_mono hf (by intro s hs; obtain ⟨s, h, rfl⟩ := List.mem_map.1 hs; rw [sm]; exact hl s h)
      rw [← ey] at this; exact this
    · have := walk_anti hf (by intro s hs; obtain ⟨s, h, rfl⟩ := List.mem_map.1 hs; rw [sm]; exact hl s h)
      rw [← ey] at this; exact this
  · have hf := ez ▸ h.2.2
    refine ⟨fun hl => ?_, fun hl => ?_⟩
    · have := walk_mono hf (by intro s hs; obtain ⟨s, h, rfl⟩ := List.mem_map.1 hs; rw [sm]; exact hl s h)
      rw [← ez] at this; exact this
    · have := walk_anti hf (by intro s hs; obtain ⟨s, h, rfl⟩ := List.mem_map.1 hs; rw [sm]; exact hl s h)
      rw [← ez] at this; exact this
/-- **C91**: a step that is too small to move the value never moves it, however often it is repeated. -/
theorem C91_stuck_point3 (p : Point3 S) (v : Vector3 S) (h : (p + v == p) = true) (n : ℕ) :
    (walk p (List.replicate n (Step.plus v)) == p) = true := by
  obtain ⟨ex, ey, ez⟩ := Point3.walk_coords p (List.replicate n (Step.plus v))
  simp only [List.map_replicate, Step.map] at ex ey ez
  have hb : (p.x + v.x == p.x) = true ∧ (p.y + v.y == p.y) = true ∧ (p.z + v.z == p.z) = true := Point3.beq_iff.1 h
  refine Point3.beq_iff.2 ⟨by rw [ex]; exact walk_stuck hb.1 n, by rw [ey]; exact walk_stuck hb.2.1 n, by rw [ez]; exact walk_stuck hb.2.2 n⟩

/-- the coordinates of a walk -/
theorem Vector3.walk_coords (p : Vector3 S) (l : List (Step (Vector3 S))) :
    (walk p l).x = walk p.x (l.map (Step.map (·.x))) ∧ (walk p l).y = walk p.y (l.map (Step.map (·.y))) ∧ (walk p l).z = walk p.z (l.map (Step.map (·.z))) :=
  ⟨walk_coord (fun p : Vector3 S => p.x) (fun v : Vector3 S => v.x) (fun _ _ => rfl) (fun _ _ => rfl) p l, walk_coord (fun p : Vector3 S => p.y) (fun v : Vector3 S => v.y) (fun _ _ => rfl) (fun _ _ => rfl) p l, walk_coord (fun p : Vector3 S => p.z) (fun v : Vector3 S => v.z) (fun _ _ => rfl) (fun _ _ => rfl) p l⟩
/-- **C91**: executing the steps in place (`+=`, `-=`) is the same. -/
theorem C91_in_place_vector3 (p : Vector3 S) (l : List (Step (Vector3 S))) :
    l.foldl (fun q s => match s with | .plus v => q.addAssign v | .minus v => q.subAssign v) p = walk p l := by
  unfold walk
  congr 1
  funext q s
  cases s <;> rfl
/-- **C91**: after any number `n` of additions and subtractions, each coordinate is within `((1+u)^n - 1)` of the exact
one, relative to where it started plus the total way. Nothing is lost to underflow. -/
theorem C91_walk_vector3 (p : Vector3 S) (l : List (Step (Vector3 S))) (h : AllFinite (walk p l)) (i : Fin 3) :
    |(walk p l).toReal i - (p.toReal i + moved (fun v => v.toReal i) l)| ≤
      ((1 + uro S) ^ l.length - 1) * (|p.toReal i| + travelled (fun v => v.toReal i) l) := by
  rw [Vector3.allFinite] at h
  obtain ⟨ex, ey, ez⟩ := Vector3.walk_coords p l
  fin_cases i
  · have := walk_err (ex ▸ h.1)
    rw [moved_map, travelled_map, List.length_map, ← ex] at this
    exact this
  · have := walk_err (ey ▸ h.2.1)
    rw [moved_map, travelled_map, List.length_map, ← ey] at this
    exact this
  · have := walk_err (ez ▸ h.2.2)
    rw [moved_map, travelled_map, List.length_map, ← ez] at this
    exact this
/-- **C91**: on a grid (integers, multiples of a power of two) with room for the whole way every history is exact. -/
theorem C91_exact_vector3 {e : ℤ} {N : ℕ} (p : Vector3 S) (l : List (Step (Vector3 S))) (hp : AllFinite p) (hl : ∀ s ∈ l, AllFinite s.vec) (hF : Fits S e N)
    (gp : ∀ i, ∃ M, OnGrid e M (p.toReal i)) (gl : ∀ s ∈ l, ∀ i, ∃ M, OnGrid e M (s.vec.toReal i))
    (hN : ∀ i, |p.toReal i| + travelled (fun v => v.toReal i) l ≤ N * 2 ^ e) :
    AllFinite (walk p l) ∧ ∀ i, (walk p l).toReal i = p.toReal i + moved (fun v => v.toReal i) l := by
  rw [Vector3.allFinite] at hp ⊢
  have hl' : ∀ s ∈ l, IsFinite s.vec.x ∧ IsFinite s.vec.y ∧ IsFinite s.vec.z := fun s hs => Vector3.allFinite.1 (hl s hs)
  obtain ⟨ex, ey, ez⟩ := Vector3.walk_coords p l
  have vm : ∀ (f : Vector3 S → S) (s : Step (Vector3 S)), (s.map f).vec = f s.vec := fun f s => by cases s <;> rfl
  have kx : Exactly (walk p.x (l.map (Step.map (·.x)))) (real p.x + moved (fun v => v.toReal 0) l) := by
    have := walk_grid (l := l.map (Step.map (fun v : Vector3 S => v.x))) hp.1
      (by intro s hs; obtain ⟨s, h, rfl⟩ := List.mem_map.1 hs; rw [vm]; exact (hl' s h).1)
      (gp 0) (by intro s hs; obtain ⟨s, h, rfl⟩ := List.mem_map.1 hs; rw [vm]; exact gl s h 0) hF
      (by rw [travelled_map]; exact hN 0)
    rw [moved_map] at this
    exact this
  have ky : Exactly (walk p.y (l.map (Step.map (·.y)))) (real p.y + moved (fun v => v.toReal 1) l) := by
    have := walk_grid (l := l.map (Step.map (fun v : Vector3 S => v.y))) hp.2.1
      (by intro s hs; obtain ⟨s, h, rfl⟩ := List.mem_map.1 hs; rw [vm]; exact (hl' s h).2.1)
      (gp 1) (by intro s hs; obtain ⟨s, h, rfl⟩ := List.mem_map.1 hs; rw [vm]; exact gl s h 1) hF
      (by rw [travelled_map]; exact hN 1)
    rw [moved_map] at this
    exact this
  have kz : Exactly (walk p.z (l.map (Step.map (·.z)))) (real p.z + moved (fun v => v.toReal 2) l) := by
    have := walk_grid (l := l.map (Step.map (fun v : Vector3 S => v.z))) hp.2.2
      (by intro s hs; obtain ⟨s, h, rfl⟩ := List.mem_map.1 hs; rw [vm]; exact (hl' s h).2.2)
      (gp 2) (by intro s hs; obtain ⟨s, h, rfl⟩ := List.mem_map.1 hs; rw [vm]; exact gl s h 2) hF
      (by rw [travelled_map]; exact hN 2)
    rw [moved_map] at this
    exact this
  rw [← ex] at kx
  rw [← ey] at ky
  rw [← ez] at kz
  refine ⟨⟨kx.1, ky.1, kz.1⟩, fun i => ?_⟩
  fin_cases i
  · exact kx.2
  · exact ky.2
  · exact kz.2
/-- **C91**: if no step moves a coordinate down (up), the coordinate never ends up lower (higher) than it started. -/
theorem C91_monotone_vector3 (p : Vector3 S) (l : List (Step (Vector3 S))) (h : AllFinite (walk p l)) (i : Fin 3) :
    ((∀ s ∈ l, 0 ≤ s.signed fun v => v.toReal i) → p.toReal i ≤ (walk p l).toReal i) ∧
    ((∀ s ∈ l, (s.signed fun v => v.toReal i) ≤ 0) → (walk p l).toReal i ≤ p.toReal i) := by
  rw [Vector3.allFinite] at h
  obtain ⟨ex, ey, ez⟩ := Vector3.walk_coords p l
  have sm : ∀ (f : Vector3 S → S) (s : Step (Vector3 S)), (s.map f).signed real = s.signed fun v => real (f v) := fun f s => by cases s <;> rfl
  fin_cases i
  · have hf := ex ▸ h.1
    refine ⟨fun hl => ?_, fun hl => ?_⟩
    · have := walk_mono hf (by intro s hs; obtain ⟨s, h, rfl⟩ := List.mem_map.1 hs; rw [sm]; exact hl s h)
      rw [← ex] at this; exact this
    · have := walk_anti hf (by intro s hs; obtain ⟨s, h, rfl⟩ := List.mem_map.1 hs; rw [sm]; exact hl s h)
      rw [← ex] at this; exact this
  · have hf := ey ▸ h.2.1
    refine ⟨fun hl => ?_, fun hl => ?_⟩
    · have := walk_mono hf (by intro s hs; obtain ⟨s, h, rfl⟩ := List.mem_map.1 hs; rw [sm]; exact hl s h)
      rw [← ey] at this; exact this
    · have := walk_anti hf (by intro s hs; obtain ⟨s, h, rfl⟩ := List.mem_map.1 hs; rw [sm]; exact hl s h)
      rw [← ey] at this; exact this
  · have hf := ez ▸ h.2.2
    refine ⟨fun hl => ?_, fun hl => ?_⟩
    · have := walk_mono hf (by intro s hs; obtain ⟨s, h, rfl⟩ := List.mem_map.1 hs; rw [sm]; exact hl s h)
      rw [← ez] at this; exact this
    · have := walk_anti hf (by intro s hs; obtain ⟨s, h, rfl⟩ := List.mem_map.1 hs; rw [sm]; exact hl s h)
      rw [← ez] at this; exact this
/-- **C91**: a step that is too small to move the value never moves it, however often it is repeated. -/
theorem C91_stuck_vector3 (p : Vector3 S) (v : Vector3 S) (h : (p + v == p) = true) (n : ℕ) :
    (walk p (List.replicate n (Step.plus v)) == p) = true := by
  obtain ⟨ex, ey, ez⟩ := Vector3.walk_coords p (List.replicate n (Step.plus v))
  simp only [List.map_replicate, Step.map] at ex ey ez
  have hb : (p.x + v.x == p.x) = true ∧ (p.y + v.y == p.y) = true ∧ (p.z + v.z == p.z) = true := Vector3.beq_iff.1 h
  refine Vector3.beq_iff.2 ⟨by rw [ex]; exact walk_stuck hb.1 n, by rw [ey]; exact walk_stuck hb.2.1 n, by rw [ez]; exact walk_stuck hb.2.2 n⟩
/-- **C91**: the mean of any number of vectors (added up, then divided by their number) is within `((1+u)^n - 1)` of the
exact mean, relative to the mean magnitude, plus one underflow. -/
theorem C91_mean3 (v : Vector3 S) (l : List (Vector3 S)) (n : S) (hn : Exactly n (l.length + 1)) (h : AllFinite (l.foldl (· + ·) v))
    (hq : AllFinite (l.foldl (· + ·) v / n)) (i : Fin 3) :
    |(l.foldl (· + ·) v / n).toReal i - ((v :: l).map fun w => w.toReal i).sum / (l.length + 1)| ≤
      ((1 + uro S) ^ (l.length + 1) - 1) * (((v :: l).map fun w => |w.toReal i|).sum / (l.length + 1)) + tiny S := by
  have ew : l.foldl (· + ·) v = walk v (l.map Step.plus) := by unfold walk; rw [List.foldl_map]; rfl
  have em : ∀ f : Vector3 S → ℝ, moved f (l.map Step.plus) = (l.map f).sum := fun f => by unfold moved; rw [List.map_map]; rfl
  have et : ∀ f : Vector3 S → ℝ, travelled f (l.map Step.plus) = (l.map fun w => |f w|).sum := fun f => by
    unfold travelled; rw [List.map_map]; rfl
  rw [ew] at h hq ⊢
  rw [Vector3.allFinite] at h hq
  obtain ⟨ex, ey, ez⟩ := Vector3.walk_coords v (l.map Step.plus)
  simp only [List.map_cons, List.sum_cons, ← em fun w => w.toReal i, ← et fun w => w.toReal i]
  fin_cases i
  · have q : IsFinite ((walk v (l.map Step.plus)).x / n) := hq.1
    have k := mean_err (a := v.x) (n := n) (l := (l.map Step.plus).map (Step.map (·.x))) (by simpa using hn)
      (ex ▸ h.1) (ex ▸ q)
    rw [moved_map, travelled_map, ← ex] at k
    simp only [List.length_map] at k
    exact k
  · have q : IsFinite ((walk v (l.map Step.plus)).y / n) := hq.2.1
    have k := mean_err (a := v.y) (n := n) (l := (l.map Step.plus).map (Step.map (·.y))) (by simpa using hn)
      (ey ▸ h.2.1) (ey ▸ q)
    rw [moved_map, travelled_map, ← ey] at k
    simp only [List.length_map] at k
    exact k
  · have q : IsFinite ((walk v (l.map Step.plus)).z / n) := hq.2.2
    have k := mean_err (a := v.z) (n := n) (l := (l.map Step.plus).map (Step.map (·.z))) (by simpa using hn)
      (ez ▸ h.2.2) (ez ▸ q)
    rw [moved_map, travelled_map, ← ez] at k
    simp only [List.length_map] at k
    exact k

/-! ### What fails -/

/-- A number near 0.9 in `f32`. -/
noncomputable def tenth32 : Fl binary32 := Fl.of (F := binary32) (7549747 / 8388608 : ℝ) ⟨7549747, -23, by decide, by decide, by norm_num⟩ (by
  show |(7549747 / 8388608 : ℝ)| < 2 ^ (128 : ℤ)
  rw [abs_of_pos (by norm_num)]
  exact lt_of_lt_of_le (by norm_num : (7549747 / 8388608 : ℝ) < 2 ^ (2 : ℤ)) (Fmt.z_le (by norm_num)))
theorem tenth_two_32 : binary32.rnd ((7549747 / 8388608 : ℝ) + (7549747 / 8388608 : ℝ)) = (7549747 / 4194304 : ℝ) := by
  rw [binary32.rnd_lit (0) (-23) 15099494 (by decide)]
  · norm_num
  all_goals norm_num
theorem tenth_three_32 : binary32.rnd ((7549747 / 4194304 : ℝ) + (7549747 / 8388608 : ℝ)) = (2831155 / 1048576 : ℝ) := by
  rw [binary32.rnd_lit_even (1) (-22) 11324620 (by decide) (by decide)]
  · norm_num
  all_goals norm_num
theorem tenth_mean_32 : binary32.rnd ((2831155 / 1048576 : ℝ) / 3) = (15099493 / 16777216 : ℝ) := by
  rw [binary32.rnd_lit (-1) (-24) 15099493 (by decide)]
  · norm_num
  all_goals norm_num
/-- **C91**: in `f32` the mean of three equal vectors can differ from them: it lies outside their bounding box. -/
theorem C91_mean_outside_32 : AllFinite ((Vector2.new tenth32 tenth32 + Vector2.new tenth32 tenth32 + Vector2.new tenth32 tenth32) / three32) ∧
    (BoundingBox2.new (Point2.new tenth32 tenth32) (Point2.new tenth32 tenth32)).isInside
      (Point2.fromVector ((Vector2.new tenth32 tenth32 + Vector2.new tenth32 tenth32 + Vector2.new tenth32 tenth32) / three32)) = false := by
  have ho := overflow32
  have h1 : Exactly tenth32 (7549747 / 8388608 : ℝ) := ⟨trivial, rfl⟩
  have h2 : Exactly three32 3 := ⟨trivial, rfl⟩
  have a := exec_add h1 h1 tenth_two_32 (by rw [abs_of_pos (by norm_num)]; norm_num at ho ⊢; linarith)
  have b := exec_add a h1 tenth_three_32 (by rw [abs_of_pos (by norm_num)]; norm_num at ho ⊢; linarith)
  have c : Exactly ((tenth32 + tenth32 + tenth32) / three32) _ := exec_div b h2 (by norm_num) tenth_mean_32 (by rw [abs_of_pos (by norm_num)]; norm_num at ho ⊢; linarith)
  refine ⟨Vector2.allFinite.2 ⟨c.1, c.1⟩, ?_⟩
  rw [Bool.eq_false_iff]
  intro hin
  have nt : ¬ IsNaN tenth32 := h1.1.not_nan
  have nn : NoNaN (Point2.new tenth32 tenth32) := Point2.noNaN.2 ⟨nt, nt⟩
  have one : (BoundingBox2.mk (Point2.new tenth32 tenth32) (Point2.new tenth32 tenth32)).isInside (Point2.new tenth32 tenth32) = true :=
    isInside2_iff.2 ⟨⟨le_self nt, le_self nt⟩, ⟨le_self nt, le_self nt⟩⟩
  obtain ⟨⟨h3, h4⟩, -⟩ := isInside2_iff.1 ((C24_new2 _ _ nn nn).2.2.2.1 _ one one _ hin)
  have r3 : val tenth32 ≤ val ((tenth32 + tenth32 + tenth32) / three32) := (le_iff.1 h3).2.2
  have r4 : val ((tenth32 + tenth32 + tenth32) / three32) ≤ val tenth32 := (le_iff.1 h4).2.2
  rw [c.1.val, h1.1.val, EReal.coe_le_coe_iff] at r3 r4
  rw [h1.2, c.2] at r3
  rw [h1.2, c.2] at r4
  norm_num at r3
/-- A number near 0.1 in `f64`. -/
noncomputable def tenth64 : Fl binary64 := Fl.of (F := binary64) (3602879701896397 / 36028797018963968 : ℝ) ⟨3602879701896397, -55, by decide, by decide, by norm_num⟩ (by
  show |(3602879701896397 / 36028797018963968 : ℝ)| < 2 ^ (1024 : ℤ)
  rw [abs_of_pos (by norm_num)]
  exact lt_of_lt_of_le (by norm_num : (3602879701896397 / 36028797018963968 : ℝ) < 2 ^ (2 : ℤ)) (Fmt.z_le (by norm_num)))
theorem tenth_two_64 : binary64.rnd ((3602879701896397 / 36028797018963968 : ℝ) + (3602879701896397 / 36028797018963968 : ℝ)) = (3602879701896397 / 18014398509481984 : ℝ) := by
  rw [binary64.rnd_lit (-3) (-55) 7205759403792794 (by decide)]
  · norm_num
  all_goals norm_num
theorem tenth_three_64 : binary64.rnd ((3602879701896397 / 18014398509481984 : ℝ) + (3602879701896397 / 36028797018963968 : ℝ)) = (1351079888211149 / 4503599627370496 : ℝ) := by
  rw [binary64.rnd_lit_even (-2) (-54) 5404319552844596 (by decide) (by decide)]
  · norm_num
  all_goals norm_num
theorem tenth_mean_64 : binary64.rnd ((1351079888211149 / 4503599627370496 : ℝ) / 3) = (7205759403792795 / 72057594037927936 : ℝ) := by
  rw [binary64.rnd_lit (-4) (-56) 7205759403792795 (by decide)]
  · norm_num
  all_goals norm_num
/-- **C91**: in `f64` the mean of three equal vectors can differ from them: it lies outside their bounding box. -/
theorem C91_mean_outside_64 : AllFinite ((Vector2.new tenth64 tenth64 + Vector2.new tenth64 tenth64 + Vector2.new tenth64 tenth64) / three64) ∧
    (BoundingBox2.new (Point2.new tenth64 tenth64) (Point2.new tenth64 tenth64)).isInside
      (Point2.fromVector ((Vector2.new tenth64 tenth64 + Vector2.new tenth64 tenth64 + Vector2.new tenth64 tenth64) / three64)) = false := by
  have ho := overflow64
  have h1 : Exactly tenth64 (3602879701896397 / 36028797018963968 : ℝ) := ⟨trivial, rfl⟩
  have h2 : Exactly three64 3 := ⟨trivial, rfl⟩
  have a := exec_add h1 h1 tenth_two_64 (by rw [abs_of_pos (by norm_num)]; norm_num at ho ⊢; linarith)
  have b := exec_add a h1 tenth_three_64 (by rw [abs_of_pos (by norm_num)]; norm_num at ho ⊢; linarith)
  have c : Exactly ((tenth64 + tenth64 + tenth64) / three64) _ := exec_div b h2 (by norm_num) tenth_mean_64 (by rw [abs_of_pos (by norm_num)]; norm_num at ho ⊢; linarith)
  refine ⟨Vector2.allFinite.2 ⟨c.1, c.1⟩, ?_⟩
  rw [Bool.eq_false_iff]
  intro hin
  have nt : ¬ IsNaN tenth64 := h1.1.not_nan
  have nn : NoNaN (Point2.new tenth64 tenth64) := Point2.noNaN.2 ⟨nt, nt⟩
  have one : (BoundingBox2.mk (Point2.new tenth64 tenth64) (Point2.new tenth64 tenth64)).isInside (Point2.new tenth64 tenth64) = true :=
    isInside2_iff.2 ⟨⟨le_self nt, le_self nt⟩, ⟨le_self nt, le_self nt⟩⟩
  obtain ⟨⟨h3, h4⟩, -⟩ := isInside2_iff.1 ((C24_new2 _ _ nn nn).2.2.2.1 _ one one _ hin)
  have r3 : val tenth64 ≤ val ((tenth64 + tenth64 + tenth64) / three64) := (le_iff.1 h3).2.2
  have r4 : val ((tenth64 + tenth64 + tenth64) / three64) ≤ val tenth64 := (le_iff.1 h4).2.2
  rw [c.1.val, h1.1.val, EReal.coe_le_coe_iff] at r3 r4
  rw [h1.2, c.2] at r3
  rw [h1.2, c.2] at r4
  norm_num at r4
/-! ### The hypotheses are met -/

/-- `2^24` (`2^53`) -/
noncomputable def far32 : F32 := Fl.of (F := binary32) (2 ^ 24) ⟨1, 24, by decide, by decide, by norm_num⟩ (by
  show |(2 ^ 24 : ℝ)| < 2 ^ (128 : ℤ)
  norm_num)
noncomputable def far64 : F64 := Fl.of (F := binary64) (2 ^ 53) ⟨1, 53, by decide, by decide, by norm_num⟩ (by
  show |(2 ^ 53 : ℝ)| < 2 ^ (1024 : ℤ)
  exact lt_of_lt_of_le (by norm_num : |(2 ^ 53 : ℝ)| < 2 ^ (54 : ℤ)) (Fmt.z_le (by norm_num)))
theorem far_add_32 : (far32 + one == far32) = true := by
  have h1 : Exactly far32 (2 ^ 24) := ⟨trivial, rfl⟩
  have k := exec_add h1 ⟨finite_one, real_one⟩ (z := 2 ^ 24) (by
    show binary32.rnd _ = _
    rw [binary32.rnd_lit_even 24 1 8388608 (by decide) (by decide)] <;> norm_num) (by
    show |(2 ^ 24 + 1 : ℝ)| < 2 ^ (128 : ℤ) - 2 ^ (103 : ℤ)
    norm_num)
  exact beq_iff.2 ⟨k.1.not_nan, h1.1.not_nan, by rw [k.1.val, h1.1.val, k.2, h1.2]⟩
theorem far_add_64 : (far64 + one == far64) = true := by
  have h1 : Exactly far64 (2 ^ 53) := ⟨trivial, rfl⟩
  have k := exec_add h1 ⟨finite_one, real_one⟩ (z := 2 ^ 53) (by
    show binary64.rnd _ = _
    rw [binary64.rnd_lit_even 53 1 4503599627370496 (by decide) (by decide)] <;> norm_num) (by
    show |(2 ^ 53 + 1 : ℝ)| < 2 ^ (1024 : ℤ) - 2 ^ (970 : ℤ)
    have h2 : (2 : ℝ) ^ (1024 : ℤ) = 2 ^ (970 : ℤ) * 2 ^ (54 : ℤ) := by rw [← zpow_add₀ (by norm_num)]; norm_num
    have h3 : (1 : ℝ) ≤ 2 ^ (970 : ℤ) := one_le_zpow₀ (by norm_num) (by norm_num)
    rw [h2, abs_of_pos (by norm_num)]
    generalize (2 : ℝ) ^ (970 : ℤ) = z at h3 ⊢
    norm_num
    linarith)
  exact beq_iff.2 ⟨k.1.not_nan, h1.1.not_nan, by rw [k.1.val, h1.1.val, k.2, h1.2]⟩
/-- **C91**: far from the origin (`2^24` in `f32`, `2^53` in `f64`) steps of length 1 never move a point, however many. -/
theorem C91_stuck_32 (n : ℕ) :
    (walk (Point2.new far32 far32) (List.replicate n (Step.plus (Vector2.new (one : F32) one))) == Point2.new far32 far32) = true :=
  C91_stuck_point2 _ _ (Point2.beq_iff.2 ⟨far_add_32, far_add_32⟩) n
theorem C91_stuck_64 (n : ℕ) :
    (walk (Point2.new far64 far64) (List.replicate n (Step.plus (Vector2.new (one : F64) one))) == Point2.new far64 far64) = true :=
  C91_stuck_point2 _ _ (Point2.beq_iff.2 ⟨far_add_64, far_add_64⟩) n

/-- there, back, and there again -/
noncomputable def back2 : List (Step (Vector2 F32)) := [.plus v34, .minus v34, .plus v34]
noncomputable def back3 : List (Step (Vector3 F32)) := [.plus v236, .minus v236, .plus v236]
theorem walk_back2 : AllFinite (walk p11 back2) ∧ ∀ i, (walk p11 back2).toReal i = p11.toReal i + moved (fun v => v.toReal i) back2 :=
  C91_exact_point2 (e := 0) (N := 100) p11 back2 finite_p11 (by simp [back2, Step.vec, finite_v34]) (fits_f32 (by norm_num))
    (fun i => ⟨_, grid_p11 i⟩) (by intro s hs i; refine ⟨4, ?_⟩; simp only [back2, List.mem_cons, List.not_mem_nil, or_false] at hs; rcases hs with rfl | rfl | rfl <;> exact grid_v34 i)
    (fun i => by
      simp only [travelled, back2, List.map_cons, List.map_nil, Step.signed, abs_neg, List.sum_cons, List.sum_nil]
      fin_cases i
      · show |((1 : ℤ) : ℝ)| + (|((3 : ℤ) : ℝ)| + (|((3 : ℤ) : ℝ)| + (|((3 : ℤ) : ℝ)| + 0))) ≤ _; norm_num
      · show |((1 : ℤ) : ℝ)| + (|((4 : ℤ) : ℝ)| + (|((4 : ℤ) : ℝ)| + (|((4 : ℤ) : ℝ)| + 0))) ≤ _; norm_num)
theorem walk_back3 : AllFinite (walk v236 back3) ∧ ∀ i, (walk v236 back3).toReal i = v236.toReal i + moved (fun v => v.toReal i) back3 :=
  C91_exact_vector3 (e := 0) (N := 100) v236 back3 finite_v236 (by simp [back3, Step.vec, finite_v236]) (fits_f32 (by norm_num))
    (fun i => ⟨_, grid_v236 i⟩) (by intro s hs i; refine ⟨6, ?_⟩; simp only [back3, List.mem_cons, List.not_mem_nil, or_false] at hs; rcases hs with rfl | rfl | rfl <;> exact grid_v236 i)
    (fun i => by
      simp only [travelled, back3, List.map_cons, List.map_nil, Step.signed, abs_neg, List.sum_cons, List.sum_nil]
      fin_cases i
      · show |((2 : ℤ) : ℝ)| + (|((2 : ℤ) : ℝ)| + (|((2 : ℤ) : ℝ)| + (|((2 : ℤ) : ℝ)| + 0))) ≤ _; norm_num
      · show |((3 : ℤ) : ℝ)| + (|((3 : ℤ) : ℝ)| + (|((3 : ℤ) : ℝ)| + (|((3 : ℤ) : ℝ)| + 0))) ≤ _; norm_num
      · show |((6 : ℤ) : ℝ)| + (|((6 : ℤ) : ℝ)| + (|((6 : ℤ) : ℝ)| + (|((6 : ℤ) : ℝ)| + 0))) ≤ _; norm_num)
example := C91_walk_point2 p11 back2 walk_back2.1
example := C91_walk_vector3 v236 back3 walk_back3.1
example : p11.toReal 0 ≤ (walk p11 [.plus v34, .plus v34]).toReal 0 := by
  have hf := (C91_exact_point2 (e := 0) (N := 100) p11 [.plus v34, .plus v34] finite_p11 (by simp [Step.vec, finite_v34]) (fits_f32 (by norm_num))
    (fun i => ⟨_, grid_p11 i⟩) (by intro s hs i; refine ⟨4, ?_⟩; simp only [List.mem_cons, List.not_mem_nil, or_false] at hs; rcases hs with rfl | rfl <;> exact grid_v34 i)
    (fun i => by
      simp only [travelled, List.map_cons, List.map_nil, Step.signed, abs_neg, List.sum_cons, List.sum_nil]
      fin_cases i
      · show |((1 : ℤ) : ℝ)| + (|((3 : ℤ) : ℝ)| + (|((3 : ℤ) : ℝ)| + 0)) ≤ _; norm_num
      · show |((1 : ℤ) : ℝ)| + (|((4 : ℤ) : ℝ)| + (|((4 : ℤ) : ℝ)| + 0)) ≤ _; norm_num)).1
  refine (C91_monotone_point2 p11 [.plus v34, .plus v34] hf 0).1 ?_
  have : (0 : ℝ) ≤ v34.toReal 0 := by show (0 : ℝ) ≤ ((3 : ℤ) : ℝ); norm_num
  simp [Step.signed, this]
/-- the mean above also instantiates the error bound for means -/
example := C91_mean2 (Vector2.new tenth32 tenth32) [Vector2.new tenth32 tenth32, Vector2.new tenth32 tenth32] three32
  ⟨trivial, by show (3 : ℝ) = _; norm_num⟩ (by
    have ho := overflow32
    have h1 : Exactly tenth32 (7549747 / 8388608) := ⟨trivial, rfl⟩
    have a := exec_add h1 h1 tenth_two_32 (by rw [abs_of_pos (by norm_num)]; norm_num at ho ⊢; linarith)
    have b := exec_add a h1 tenth_three_32 (by rw [abs_of_pos (by norm_num)]; norm_num at ho ⊢; linarith)
    exact Vector2.allFinite.2 ⟨b.1, b.1⟩) C91_mean_outside_32.1

end VecMath

import Verif.Lemmas.Param
/-! # C115: every function of the crate keeps every relation that the scalar operations keep (3D) -/

namespace VecMath
open Scalar Relator
set_option linter.unusedSectionVars false
set_option linter.unusedVariables false
section
variable {S T : Type} [Scalar S] [Scalar T] {ρ : S → T → Prop}

theorem Vector3.rel_new  : (ρ ⇒ ρ ⇒ ρ ⇒ V3 ρ) Vector3.new Vector3.new := by
  rintro _ _ _ _ _ _ _ _ _; para
theorem Vector3.rel_fn  : (ρ ⇒ ρ ⇒ ρ ⇒ V3 ρ) vector3 vector3 := by
  rintro _ _ _ _ _ _ _ _ _; para
theorem Vector3.rel_zero [Kept ρ] : V3 ρ Vector3.zero Vector3.zero := by
  para
theorem Vector3.rel_xAxis [Kept ρ] : V3 ρ Vector3.xAxis Vector3.xAxis := by
  para
theorem Vector3.rel_yAxis [Kept ρ] : V3 ρ Vector3.yAxis Vector3.yAxis := by
  para
theorem Vector3.rel_zAxis [Kept ρ] : V3 ρ Vector3.zAxis Vector3.zAxis := by
  para
theorem Vector3.rel_axis [Kept ρ] : (Eq ⇒ V3 ρ) Vector3.axis Vector3.axis := by
  rintro d0 _ rfl; cases d0 <;> para
theorem Vector3.rel_floor [Kept ρ] : (V3 ρ ⇒ V3 ρ) Vector3.floor Vector3.floor := by
  rintro _ _ ⟨_, _, _⟩; para
theorem Vector3.rel_ceil [Kept ρ] : (V3 ρ ⇒ V3 ρ) Vector3.ceil Vector3.ceil := by
  rintro _ _ ⟨_, _, _⟩; para
theorem Vector3.rel_round [Kept ρ] : (V3 ρ ⇒ V3 ρ) Vector3.round Vector3.round := by
  rintro _ _ ⟨_, _, _⟩; para
theorem Vector3.rel_trunc [Kept ρ] : (V3 ρ ⇒ V3 ρ) Vector3.trunc Vector3.trunc := by
  rintro _ _ ⟨_, _, _⟩; para
theorem Vector3.rel_fract [Kept ρ] : (V3 ρ ⇒ V3 ρ) Vector3.fract Vector3.fract := by
  rintro _ _ ⟨_, _, _⟩; para
theorem Vector3.rel_abs [Kept ρ] : (V3 ρ ⇒ V3 ρ) Vector3.abs Vector3.abs := by
  rintro _ _ ⟨_, _, _⟩; para
theorem Vector3.rel_minDimension [Kept ρ] : (V3 ρ ⇒ Eq) Vector3.minDimension Vector3.minDimension := by
  rintro _ _ ⟨_, _, _⟩; para
theorem Vector3.rel_maxDimension [Kept ρ] : (V3 ρ ⇒ Eq) Vector3.maxDimension Vector3.maxDimension := by
  rintro _ _ ⟨_, _, _⟩; para
theorem Vector3.rel_index  : (V3 ρ ⇒ Eq ⇒ ρ) Vector3.index Vector3.index := by
  rintro _ _ ⟨_, _, _⟩ d1 _ rfl; cases d1 <;> para
theorem Vector3.rel_permute  : (V3 ρ ⇒ Eq ⇒ Eq ⇒ Eq ⇒ V3 ρ) Vector3.permute Vector3.permute := by
  rintro _ _ ⟨_, _, _⟩ d1 _ rfl d2 _ rfl d3 _ rfl; cases d1 <;> cases d2 <;> cases d3 <;> para
theorem Vector3.rel_indexMut  : (V3 ρ ⇒ Eq ⇒ (ρ ⇒ ρ) ⇒ V3 ρ) Vector3.indexMut Vector3.indexMut := by
  rintro _ _ ⟨_, _, _⟩ d1 _ rfl _ _ hf; cases d1
  · exact ⟨hf ‹_›, ‹_›, ‹_›⟩
  · exact ⟨‹_›, hf ‹_›, ‹_›⟩
  · exact ⟨‹_›, ‹_›, hf ‹_›⟩
theorem Vector3.rel_min [KeptMin ρ] : (V3 ρ ⇒ V3 ρ ⇒ V3 ρ) Api.min Api.min := by
  rintro _ _ ⟨_, _, _⟩ _ _ ⟨_, _, _⟩; para
theorem Vector3.rel_max [KeptMin ρ] : (V3 ρ ⇒ V3 ρ ⇒ V3 ρ) Api.max Api.max := by
  rintro _ _ ⟨_, _, _⟩ _ _ ⟨_, _, _⟩; para
theorem Vector3.rel_beq [Kept ρ] : (V3 ρ ⇒ V3 ρ ⇒ Eq) (fun (a : Vector3 S) (b : Vector3 S) => a == b) (fun (a : Vector3 T) (b : Vector3 T) => a == b) := by
  rintro _ _ ⟨_, _, _⟩ _ _ ⟨_, _, _⟩; para
theorem Vector3.rel_neg [Kept ρ] : (V3 ρ ⇒ V3 ρ) (fun (a : Vector3 S) => -a) (fun (a : Vector3 T) => -a) := by
  rintro _ _ ⟨_, _, _⟩; para
theorem Vector3.rel_mul [Kept ρ] : (V3 ρ ⇒ ρ ⇒ V3 ρ) (fun (a : Vector3 S) (s : S) => a * s) (fun (a : Vector3 T) (s : T) => a * s) := by
  rintro _ _ ⟨_, _, _⟩ _ _ _; para
theorem Vector3.rel_smul [Kept ρ] : (ρ ⇒ V3 ρ ⇒ V3 ρ) (fun (s : S) (a : Vector3 S) => s * a) (fun (s : T) (a : Vector3 T) => s * a) := by
  rintro _ _ _ _ _ ⟨_, _, _⟩; para
theorem Vector3.rel_div [Kept ρ] [KeptDiv ρ] : (V3 ρ ⇒ ρ ⇒ V3 ρ) (fun (a : Vector3 S) (s : S) => a / s) (fun (a : Vector3 T) (s : T) => a / s) := by
  rintro _ _ ⟨_, _, _⟩ _ _ _; para
theorem Vector3.rel_mulAssign [Kept ρ] : (V3 ρ ⇒ ρ ⇒ V3 ρ) Vector3.mulAssign Vector3.mulAssign := by
  rintro _ _ ⟨_, _, _⟩ _ _ _; para
theorem Vector3.rel_divAssign [Kept ρ] [KeptDiv ρ] : (V3 ρ ⇒ ρ ⇒ V3 ρ) Vector3.divAssign Vector3.divAssign := by
  rintro _ _ ⟨_, _, _⟩ _ _ _; para
theorem Vector3.rel_add [Kept ρ] : (V3 ρ ⇒ V3 ρ ⇒ V3 ρ) (fun (a : Vector3 S) (v : Vector3 S) => a + v) (fun (a : Vector3 T) (v : Vector3 T) => a + v) := by
  rintro _ _ ⟨_, _, _⟩ _ _ ⟨_, _, _⟩; para
theorem Vector3.rel_sub [Kept ρ] : (V3 ρ ⇒ V3 ρ ⇒ V3 ρ) (fun (a : Vector3 S) (v : Vector3 S) => a - v) (fun (a : Vector3 T) (v : Vector3 T) => a - v) := by
  rintro _ _ ⟨_, _, _⟩ _ _ ⟨_, _, _⟩; para
theorem Vector3.rel_addAssign [Kept ρ] : (V3 ρ ⇒ V3 ρ ⇒ V3 ρ) Vector3.addAssign Vector3.addAssign := by
  rintro _ _ ⟨_, _, _⟩ _ _ ⟨_, _, _⟩; para
theorem Vector3.rel_subAssign [Kept ρ] : (V3 ρ ⇒ V3 ρ ⇒ V3 ρ) Vector3.subAssign Vector3.subAssign := by
  rintro _ _ ⟨_, _, _⟩ _ _ ⟨_, _, _⟩; para
theorem Vector3.rel_dot [Kept ρ] : (V3 ρ ⇒ V3 ρ ⇒ ρ) Api.dot Api.dot := by
  rintro _ _ ⟨_, _, _⟩ _ _ ⟨_, _, _⟩; para
theorem Vector3.rel_length [Kept ρ] : (V3 ρ ⇒ ρ) Api.length Api.length := by
  rintro _ _ ⟨_, _, _⟩; para
theorem Vector3.rel_cross [Kept ρ] : (V3 ρ ⇒ V3 ρ ⇒ V3 ρ) Api.cross Api.cross := by
  rintro _ _ ⟨_, _, _⟩ _ _ ⟨_, _, _⟩; para
theorem Vector3.rel_isShorterThan [Kept ρ] : (V3 ρ ⇒ V3 ρ ⇒ Eq) RelativeLength.isShorterThan RelativeLength.isShorterThan := by
  rintro _ _ ⟨_, _, _⟩ _ _ ⟨_, _, _⟩; para
theorem Vector3.rel_isLongerThan [Kept ρ] : (V3 ρ ⇒ V3 ρ ⇒ Eq) RelativeLength.isLongerThan RelativeLength.isLongerThan := by
  rintro _ _ ⟨_, _, _⟩ _ _ ⟨_, _, _⟩; para
theorem Vector3.rel_shortest [Kept ρ] : (V3 ρ ⇒ V3 ρ ⇒ V3 ρ) Api.shortest Api.shortest := by
  rintro _ _ ⟨_, _, _⟩ _ _ ⟨_, _, _⟩; para
theorem Vector3.rel_longest [Kept ρ] : (V3 ρ ⇒ V3 ρ ⇒ V3 ρ) Api.longest Api.longest := by
  rintro _ _ ⟨_, _, _⟩ _ _ ⟨_, _, _⟩; para
theorem Vector3.rel_fromPoint  : (P3 ρ ⇒ V3 ρ) Vector3.fromPoint Vector3.fromPoint := by
  rintro _ _ ⟨_, _, _⟩; para
theorem Vector3.rel_normalize [Kept ρ] [KeptDiv ρ] : (V3 ρ ⇒ V3 ρ) Vector3.normalize Vector3.normalize := by
  rintro _ _ ⟨_, _, _⟩; para
theorem Point3.rel_new  : (ρ ⇒ ρ ⇒ ρ ⇒ P3 ρ) Point3.new Point3.new := by
  rintro _ _ _ _ _ _ _ _ _; para
theorem Point3.rel_fn  : (ρ ⇒ ρ ⇒ ρ ⇒ P3 ρ) point3 point3 := by
  rintro _ _ _ _ _ _ _ _ _; para
theorem Point3.rel_origin [Kept ρ] : P3 ρ Point3.origin Point3.origin := by
  para
theorem Point3.rel_floor [Kept ρ] : (P3 ρ ⇒ P3 ρ) Point3.floor Point3.floor := by
  rintro _ _ ⟨_, _, _⟩; para
theorem Point3.rel_ceil [Kept ρ] : (P3 ρ ⇒ P3 ρ) Point3.ceil Point3.ceil := by
  rintro _ _ ⟨_, _, _⟩; para
theorem Point3.rel_round [Kept ρ] : (P3 ρ ⇒ P3 ρ) Point3.round Point3.round := by
  rintro _ _ ⟨_, _, _⟩; para
theorem Point3.rel_trunc [Kept ρ] : (P3 ρ ⇒ P3 ρ) Point3.trunc Point3.trunc := by
  rintro _ _ ⟨_, _, _⟩; para
theorem Point3.rel_fract [Kept ρ] : (P3 ρ ⇒ P3 ρ) Point3.fract Point3.fract := by
  rintro _ _ ⟨_, _, _⟩; para
theorem Point3.rel_abs [Kept ρ] : (P3 ρ ⇒ P3 ρ) Point3.abs Point3.abs := by
  rintro _ _ ⟨_, _, _⟩; para
theorem Point3.rel_minDimension [Kept ρ] : (P3 ρ ⇒ Eq) Point3.minDimension Point3.minDimension := by
  rintro _ _ ⟨_, _, _⟩; para
theorem Point3.rel_maxDimension [Kept ρ] : (P3 ρ ⇒ Eq) Point3.maxDimension Point3.maxDimension := by
  rintro _ _ ⟨_, _, _⟩; para
theorem Point3.rel_index  : (P3 ρ ⇒ Eq ⇒ ρ) Point3.index Point3.index := by
  rintro _ _ ⟨_, _, _⟩ d1 _ rfl; cases d1 <;> para
theorem Point3.rel_permute  : (P3 ρ ⇒ Eq ⇒ Eq ⇒ Eq ⇒ P3 ρ) Point3.permute Point3.permute := by
  rintro _ _ ⟨_, _, _⟩ d1 _ rfl d2 _ rfl d3 _ rfl; cases d1 <;> cases d2 <;> cases d3 <;> para
theorem Point3.rel_indexMut  : (P3 ρ ⇒ Eq ⇒ (ρ ⇒ ρ) ⇒ P3 ρ) Point3.indexMut Point3.indexMut := by
  rintro _ _ ⟨_, _, _⟩ d1 _ rfl _ _ hf; cases d1
  · exact ⟨hf ‹_›, ‹_›, ‹_›⟩
  · exact ⟨‹_›, hf ‹_›, ‹_›⟩
  · exact ⟨‹_›, ‹_›, hf ‹_›⟩
theorem Point3.rel_min [KeptMin ρ] : (P3 ρ ⇒ P3 ρ ⇒ P3 ρ) Api.min Api.min := by
  rintro _ _ ⟨_, _, _⟩ _ _ ⟨_, _, _⟩; para
theorem Point3.rel_max [KeptMin ρ] : (P3 ρ ⇒ P3 ρ ⇒ P3 ρ) Api.max Api.max := by
  rintro _ _ ⟨_, _, _⟩ _ _ ⟨_, _, _⟩; para
theorem Point3.rel_beq [Kept ρ] : (P3 ρ ⇒ P3 ρ ⇒ Eq) (fun (a : Point3 S) (b : Point3 S) => a == b) (fun (a : Point3 T) (b : Point3 T) => a == b) := by
  rintro _ _ ⟨_, _, _⟩ _ _ ⟨_, _, _⟩; para
theorem Point3.rel_neg [Kept ρ] : (P3 ρ ⇒ P3 ρ) (fun (a : Point3 S) => -a) (fun (a : Point3 T) => -a) := by
  rintro _ _ ⟨_, _, _⟩; para
theorem Point3.rel_mul [Kept ρ] : (P3 ρ ⇒ ρ ⇒ P3 ρ) (fun (a : Point3 S) (s : S) => a * s) (fun (a : Point3 T) (s : T) => a * s) := by
  rintro _ _ ⟨_, _, _⟩ _ _ _; para
theorem Point3.rel_smul [Kept ρ] : (ρ ⇒ P3 ρ ⇒ P3 ρ) (fun (s : S) (a : Point3 S) => s * a) (fun (s : T) (a : Point3 T) => s * a) := by
  rintro _ _ _ _ _ ⟨_, _, _⟩; para
theorem Point3.rel_div [Kept ρ] [KeptDiv ρ] : (P3 ρ ⇒ ρ ⇒ P3 ρ) (fun (a : Point3 S) (s : S) => a / s) (fun (a : Point3 T) (s : T) => a / s) := by
  rintro _ _ ⟨_, _, _⟩ _ _ _; para
theorem Point3.rel_mulAssign [Kept ρ] : (P3 ρ ⇒ ρ ⇒ P3 ρ) Point3.mulAssign Point3.mulAssign := by
  rintro _ _ ⟨_, _, _⟩ _ _ _; para
theorem Point3.rel_divAssign [Kept ρ] [KeptDiv ρ] : (P3 ρ ⇒ ρ ⇒ P3 ρ) Point3.divAssign Point3.divAssign := by
  rintro _ _ ⟨_, _, _⟩ _ _ _; para
theorem Point3.rel_add [Kept ρ] : (P3 ρ ⇒ V3 ρ ⇒ P3 ρ) (fun (a : Point3 S) (v : Vector3 S) => a + v) (fun (a : Point3 T) (v : Vector3 T) => a + v) := by
  rintro _ _ ⟨_, _, _⟩ _ _ ⟨_, _, _⟩; para
theorem Point3.rel_sub [Kept ρ] : (P3 ρ ⇒ V3 ρ ⇒ P3 ρ) (fun (a : Point3 S) (v : Vector3 S) => a - v) (fun (a : Point3 T) (v : Vector3 T) => a - v) := by
  rintro _ _ ⟨_, _, _⟩ _ _ ⟨_, _, _⟩; para
theorem Point3.rel_addAssign [Kept ρ] : (P3 ρ ⇒ V3 ρ ⇒ P3 ρ) Point3.addAssign Point3.addAssign := by
  rintro _ _ ⟨_, _, _⟩ _ _ ⟨_, _, _⟩; para
theorem Point3.rel_subAssign [Kept ρ] : (P3 ρ ⇒ V3 ρ ⇒ P3 ρ) Point3.subAssign Point3.subAssign := by
  rintro _ _ ⟨_, _, _⟩ _ _ ⟨_, _, _⟩; para
theorem Point3.rel_diff [Kept ρ] : (P3 ρ ⇒ P3 ρ ⇒ V3 ρ) (fun (a : Point3 S) (b : Point3 S) => a - b) (fun (a : Point3 T) (b : Point3 T) => a - b) := by
  rintro _ _ ⟨_, _, _⟩ _ _ ⟨_, _, _⟩; para
theorem Point3.rel_fromVector  : (V3 ρ ⇒ P3 ρ) Point3.fromVector Point3.fromVector := by
  rintro _ _ ⟨_, _, _⟩; para
theorem Point3.rel_distance [Kept ρ] : (P3 ρ ⇒ P3 ρ ⇒ ρ) Api.distance Api.distance := by
  rintro _ _ ⟨_, _, _⟩ _ _ ⟨_, _, _⟩; para
theorem Point3.rel_isCloserTo [Kept ρ] : (P3 ρ ⇒ P3 ρ ⇒ P3 ρ ⇒ Eq) RelativeDistance.isCloserTo RelativeDistance.isCloserTo := by
  rintro _ _ ⟨_, _, _⟩ _ _ ⟨_, _, _⟩ _ _ ⟨_, _, _⟩; para
theorem Point3.rel_isFartherFrom [Kept ρ] : (P3 ρ ⇒ P3 ρ ⇒ P3 ρ ⇒ Eq) RelativeDistance.isFartherFrom RelativeDistance.isFartherFrom := by
  rintro _ _ ⟨_, _, _⟩ _ _ ⟨_, _, _⟩ _ _ ⟨_, _, _⟩; para
theorem Point3.rel_closest [Kept ρ] : (P3 ρ ⇒ P3 ρ ⇒ P3 ρ ⇒ P3 ρ) Api.closest Api.closest := by
  rintro _ _ ⟨_, _, _⟩ _ _ ⟨_, _, _⟩ _ _ ⟨_, _, _⟩; para
theorem Point3.rel_farthest [Kept ρ] : (P3 ρ ⇒ P3 ρ ⇒ P3 ρ ⇒ P3 ρ) Api.farthest Api.farthest := by
  rintro _ _ ⟨_, _, _⟩ _ _ ⟨_, _, _⟩ _ _ ⟨_, _, _⟩; para
theorem Ray3.rel_new  : (P3 ρ ⇒ V3 ρ ⇒ R3 ρ) Ray3.new Ray3.new := by
  rintro _ _ ⟨_, _, _⟩ _ _ ⟨_, _, _⟩; para
theorem Ray3.rel_fn  : (P3 ρ ⇒ V3 ρ ⇒ R3 ρ) ray3 ray3 := by
  rintro _ _ ⟨_, _, _⟩ _ _ ⟨_, _, _⟩; para
theorem Ray3.rel_at [Kept ρ] : (R3 ρ ⇒ ρ ⇒ P3 ρ) Ray3.at Ray3.at := by
  rintro _ _ ⟨⟨_, _, _⟩, ⟨_, _, _⟩⟩ _ _ _; para
theorem Ray3.rel_beq [Kept ρ] : (R3 ρ ⇒ R3 ρ ⇒ Eq) (fun (a : Ray3 S) (b : Ray3 S) => a == b) (fun (a : Ray3 T) (b : Ray3 T) => a == b) := by
  rintro _ _ ⟨⟨_, _, _⟩, ⟨_, _, _⟩⟩ _ _ ⟨⟨_, _, _⟩, ⟨_, _, _⟩⟩; para
theorem BoundingBox3.rel_new [KeptMin ρ] : (P3 ρ ⇒ P3 ρ ⇒ B3 ρ) BoundingBox3.new BoundingBox3.new := by
  rintro _ _ ⟨_, _, _⟩ _ _ ⟨_, _, _⟩; para
theorem BoundingBox3.rel_empty [Kept ρ] : B3 ρ BoundingBox3.empty BoundingBox3.empty := by
  para
theorem BoundingBox3.rel_infinite [Kept ρ] : B3 ρ BoundingBox3.infinite BoundingBox3.infinite := by
  para
theorem BoundingBox3.rel_width [Kept ρ] : (B3 ρ ⇒ ρ) BoundingBox3.width BoundingBox3.width := by
  rintro _ _ ⟨⟨_, _, _⟩, ⟨_, _, _⟩⟩; para
theorem BoundingBox3.rel_height [Kept ρ] : (B3 ρ ⇒ ρ) BoundingBox3.height BoundingBox3.height := by
  rintro _ _ ⟨⟨_, _, _⟩, ⟨_, _, _⟩⟩; para
theorem BoundingBox3.rel_depth [Kept ρ] : (B3 ρ ⇒ ρ) BoundingBox3.depth BoundingBox3.depth := by
  rintro _ _ ⟨⟨_, _, _⟩, ⟨_, _, _⟩⟩; para
theorem BoundingBox3.rel_surfaceArea [Kept ρ] : (B3 ρ ⇒ ρ) BoundingBox3.surfaceArea BoundingBox3.surfaceArea := by
  rintro _ _ ⟨⟨_, _, _⟩, ⟨_, _, _⟩⟩; para
theorem BoundingBox3.rel_volume [Kept ρ] : (B3 ρ ⇒ ρ) BoundingBox3.volume BoundingBox3.volume := by
  rintro _ _ ⟨⟨_, _, _⟩, ⟨_, _, _⟩⟩; para
theorem BoundingBox3.rel_size [Kept ρ] : (B3 ρ ⇒ Both ρ (Both ρ ρ)) BoundingBox3.size BoundingBox3.size := by
  rintro _ _ ⟨⟨_, _, _⟩, ⟨_, _, _⟩⟩; para
theorem BoundingBox3.rel_extent [Kept ρ] : (B3 ρ ⇒ Eq ⇒ ρ) BoundingBox3.extent BoundingBox3.extent := by
  rintro _ _ ⟨⟨_, _, _⟩, ⟨_, _, _⟩⟩ d1 _ rfl; cases d1 <;> para
theorem BoundingBox3.rel_diagonal [Kept ρ] : (B3 ρ ⇒ V3 ρ) BoundingBox3.diagonal BoundingBox3.diagonal := by
  rintro _ _ ⟨⟨_, _, _⟩, ⟨_, _, _⟩⟩; para
theorem BoundingBox3.rel_minDimension [Kept ρ] : (B3 ρ ⇒ Eq) BoundingBox3.minDimension BoundingBox3.minDimension := by
  rintro _ _ ⟨⟨_, _, _⟩, ⟨_, _, _⟩⟩; para
theorem BoundingBox3.rel_maxDimension [Kept ρ] : (B3 ρ ⇒ Eq) BoundingBox3.maxDimension BoundingBox3.maxDimension := by
  rintro _ _ ⟨⟨_, _, _⟩, ⟨_, _, _⟩⟩; para
theorem BoundingBox3.rel_center [Kept ρ] : (B3 ρ ⇒ P3 ρ) BoundingBox3.center BoundingBox3.center := by
  rintro _ _ ⟨⟨_, _, _⟩, ⟨_, _, _⟩⟩; para
theorem BoundingBox3.rel_overlaps [Kept ρ] : (B3 ρ ⇒ B3 ρ ⇒ Eq) BoundingBox3.overlaps BoundingBox3.overlaps := by
  rintro _ _ ⟨⟨_, _, _⟩, ⟨_, _, _⟩⟩ _ _ ⟨⟨_, _, _⟩, ⟨_, _, _⟩⟩; para
theorem BoundingBox3.rel_isInside [Kept ρ] : (B3 ρ ⇒ P3 ρ ⇒ Eq) BoundingBox3.isInside BoundingBox3.isInside := by
  rintro _ _ ⟨⟨_, _, _⟩, ⟨_, _, _⟩⟩ _ _ ⟨_, _, _⟩; para
theorem BoundingBox3.rel_corner  : (B3 ρ ⇒ Eq ⇒ Eq ⇒ Outcome (P3 ρ)) BoundingBox3.corner BoundingBox3.corner := by
  rintro _ _ ⟨⟨_, _, _⟩, ⟨_, _, _⟩⟩ d1 _ rfl d2 _ rfl; unfold BoundingBox3.corner; split
  · exact .error _
  · refine .ok ?_; para
theorem BoundingBox3.rel_beq [Kept ρ] : (B3 ρ ⇒ B3 ρ ⇒ Eq) (fun (a : BoundingBox3 S) (b : BoundingBox3 S) => a == b) (fun (a : BoundingBox3 T) (b : BoundingBox3 T) => a == b) := by
  rintro _ _ ⟨⟨_, _, _⟩, ⟨_, _, _⟩⟩ _ _ ⟨⟨_, _, _⟩, ⟨_, _, _⟩⟩; para
theorem BoundingBox3.rel_union [KeptMin ρ] : (B3 ρ ⇒ B3 ρ ⇒ B3 ρ) (fun (a : BoundingBox3 S) (b : BoundingBox3 S) => Api.union a b) (fun (a : BoundingBox3 T) (b : BoundingBox3 T) => Api.union a b) := by
  rintro _ _ ⟨⟨_, _, _⟩, ⟨_, _, _⟩⟩ _ _ ⟨⟨_, _, _⟩, ⟨_, _, _⟩⟩; para
theorem BoundingBox3.rel_unionPoint [KeptMin ρ] : (B3 ρ ⇒ P3 ρ ⇒ B3 ρ) (fun (a : BoundingBox3 S) (p : Point3 S) => Api.union a p) (fun (a : BoundingBox3 T) (p : Point3 T) => Api.union a p) := by
  rintro _ _ ⟨⟨_, _, _⟩, ⟨_, _, _⟩⟩ _ _ ⟨_, _, _⟩; para
theorem BoundingBox3.rel_intersect [Kept ρ] [KeptMin ρ] : (B3 ρ ⇒ B3 ρ ⇒ Option.Rel (B3 ρ)) (fun (a : BoundingBox3 S) (b : BoundingBox3 S) => Api.intersect a b) (fun (a : BoundingBox3 T) (b : BoundingBox3 T) => Api.intersect a b) := by
  rintro _ _ ⟨⟨_, _, _⟩, ⟨_, _, _⟩⟩ _ _ ⟨⟨_, _, _⟩, ⟨_, _, _⟩⟩; exact ite_rel (by para) (.some (by para)) .none
theorem BoundingBox3.rel_intersectRay' {σ : S → T → Prop} [Kept ρ] [KeptDiv ρ] [Kept σ] [KeptMin σ] (hs : ∀ a b, ρ a b → σ a b) :
    (B3 ρ ⇒ R3 ρ ⇒ Option.Rel (Rg σ)) (fun (a : BoundingBox3 S) (r : Ray3 S) => Api.intersect a r) (fun (a : BoundingBox3 T) (r : Ray3 T) => Api.intersect a r) := by
  rintro _ _ ⟨⟨lx, ly, lz⟩, ⟨tx, ty, tz⟩⟩ _ _ ⟨⟨ox, oy, oz⟩, ⟨dx, dy, dz⟩⟩
  have x1 := hs _ _ (KeptDiv.div (Kept.sub lx ox) dx)
  have x2 := hs _ _ (KeptDiv.div (Kept.sub tx ox) dx)
  have y1 := hs _ _ (KeptDiv.div (Kept.sub ly oy) dy)
  have y2 := hs _ _ (KeptDiv.div (Kept.sub ty oy) dy)
  have z1 := hs _ _ (KeptDiv.div (Kept.sub lz oz) dz)
  have z2 := hs _ _ (KeptDiv.div (Kept.sub tz oz) dz)
  exact ite_rel (by para) .none (ite_rel (by para) .none (ite_rel (by para) (.some (by para)) .none))
theorem BoundingBox3.rel_intersectRay [Kept ρ] [KeptMin ρ] [KeptDiv ρ] :
    (B3 ρ ⇒ R3 ρ ⇒ Option.Rel (Rg ρ)) (fun (a : BoundingBox3 S) (r : Ray3 S) => Api.intersect a r) (fun (a : BoundingBox3 T) (r : Ray3 T) => Api.intersect a r) := rel_intersectRay' fun _ _ h => h
theorem Matrix4x4.rel_identity [Kept ρ] : M4 ρ Matrix4x4.identity Matrix4x4.identity := by
  refine M4.mk ?_ ?_ ?_ ?_ ?_ ?_ ?_ ?_ ?_ ?_ ?_ ?_ ?_ ?_ ?_ ?_ <;> para
theorem Matrix4x4.rel_translate [Kept ρ] : (V3 ρ ⇒ M4 ρ) Matrix4x4.translate Matrix4x4.translate := by
  rintro _ _ ⟨_, _, _⟩; refine M4.mk ?_ ?_ ?_ ?_ ?_ ?_ ?_ ?_ ?_ ?_ ?_ ?_ ?_ ?_ ?_ ?_ <;> para
theorem Matrix4x4.rel_rotateX [Kept ρ] [KeptTrig ρ] : (ρ ⇒ M4 ρ) Matrix4x4.rotateX Matrix4x4.rotateX := by
  rintro _ _ _; refine M4.mk ?_ ?_ ?_ ?_ ?_ ?_ ?_ ?_ ?_ ?_ ?_ ?_ ?_ ?_ ?_ ?_ <;> para
theorem Matrix4x4.rel_rotateY [Kept ρ] [KeptTrig ρ] : (ρ ⇒ M4 ρ) Matrix4x4.rotateY Matrix4x4.rotateY := by
  rintro _ _ _; refine M4.mk ?_ ?_ ?_ ?_ ?_ ?_ ?_ ?_ ?_ ?_ ?_ ?_ ?_ ?_ ?_ ?_ <;> para
theorem Matrix4x4.rel_rotateZ [Kept ρ] [KeptTrig ρ] : (ρ ⇒ M4 ρ) Matrix4x4.rotateZ Matrix4x4.rotateZ := by
  rintro _ _ _; refine M4.mk ?_ ?_ ?_ ?_ ?_ ?_ ?_ ?_ ?_ ?_ ?_ ?_ ?_ ?_ ?_ ?_ <;> para
theorem Matrix4x4.rel_rotateAxis [Kept ρ] [KeptDiv ρ] [KeptTrig ρ] : (V3 ρ ⇒ ρ ⇒ M4 ρ) Matrix4x4.rotateAxis Matrix4x4.rotateAxis := by
  rintro _ _ ⟨_, _, _⟩ _ _ _; refine M4.mk ?_ ?_ ?_ ?_ ?_ ?_ ?_ ?_ ?_ ?_ ?_ ?_ ?_ ?_ ?_ ?_ <;> para
theorem Matrix4x4.rel_inverseLookAt [Kept ρ] [KeptDiv ρ] : (P3 ρ ⇒ P3 ρ ⇒ V3 ρ ⇒ M4 ρ) Matrix4x4.inverseLookAt Matrix4x4.inverseLookAt := by
  intro o o' ho t t' ht u u' hu
  have hd := Vector3.rel_normalize (Point3.rel_diff ht ho)
  have hr := Vector3.rel_normalize (Vector3.rel_cross (Vector3.rel_normalize hu) hd)
  have hn := Vector3.rel_cross hd hr
  exact M4.mk hr.1 hn.1 hd.1 ho.1 hr.2.1 hn.2.1 hd.2.1 ho.2.1 hr.2.2 hn.2.2 hd.2.2 ho.2.2 Kept.zero Kept.zero Kept.zero Kept.one
theorem Matrix4x4.rel_scale [Kept ρ] : (ρ ⇒ ρ ⇒ ρ ⇒ M4 ρ) Matrix4x4.scale Matrix4x4.scale := by
  rintro _ _ _ _ _ _ _ _ _; refine M4.mk ?_ ?_ ?_ ?_ ?_ ?_ ?_ ?_ ?_ ?_ ?_ ?_ ?_ ?_ ?_ ?_ <;> para
theorem Matrix4x4.rel_scaleUniform [Kept ρ] : (ρ ⇒ M4 ρ) Matrix4x4.scaleUniform Matrix4x4.scaleUniform := by
  rintro _ _ _; refine M4.mk ?_ ?_ ?_ ?_ ?_ ?_ ?_ ?_ ?_ ?_ ?_ ?_ ?_ ?_ ?_ ?_ <;> para
theorem Matrix4x4.rel_get  : (M4 ρ ⇒ Eq ⇒ Eq ⇒ Eq ⇒ Outcome ρ) Matrix4x4.get Matrix4x4.get := by
  rintro _ _ h0 d1 _ rfl d2 _ rfl d3 _ rfl; unfold Matrix4x4.get
  rcases Matrix4x4.linearIndex d1 d2 d3 with e | k
  · exact .error _
  · show Outcome _ (dite _ _ _) (dite _ _ _)
    by_cases hk : k < 16
    · rw [dif_pos hk, dif_pos hk]; exact .ok (h0 k hk)
    · rw [dif_neg hk, dif_neg hk]; exact .error _
theorem Matrix4x4.rel_set  : (M4 ρ ⇒ Eq ⇒ Eq ⇒ Eq ⇒ ρ ⇒ Outcome (M4 ρ)) Matrix4x4.set Matrix4x4.set := by
  rintro _ _ h0 d1 _ rfl d2 _ rfl d3 _ rfl _ _ _; unfold Matrix4x4.set
  rcases Matrix4x4.linearIndex d1 d2 d3 with e | k
  · exact .error _
  · show Outcome _ (dite _ _ _) (dite _ _ _)
    by_cases hk : k < 16
    · rw [dif_pos hk, dif_pos hk]; exact .ok (by
        intro j hj
        show ρ (Vector.set _ k _ hk)[j] (Vector.set _ k _ hk)[j]
        rw [Vector.getElem_set, Vector.getElem_set]
        by_cases e : k = j
        · rw [if_pos e, if_pos e]; assumption
        · rw [if_neg e, if_neg e]; exact h0 j hj)
    · rw [dif_neg hk, dif_neg hk]; exact .error _
theorem Matrix4x4.rel_getMut  : (M4 ρ ⇒ Eq ⇒ Eq ⇒ Eq ⇒ (ρ ⇒ ρ) ⇒ Outcome (M4 ρ)) Matrix4x4.getMut Matrix4x4.getMut := by
  rintro _ _ h0 d1 _ rfl d2 _ rfl d3 _ rfl _ _ hf; unfold Matrix4x4.getMut
  rcases Matrix4x4.linearIndex d1 d2 d3 with e | k
  · exact .error _
  · show Outcome _ (dite _ _ _) (dite _ _ _)
    by_cases hk : k < 16
    · rw [dif_pos hk, dif_pos hk]; exact .ok (by
        intro j hj
        show ρ (Vector.set _ k _ hk)[j] (Vector.set _ k _ hk)[j]
        rw [Vector.getElem_set, Vector.getElem_set]
        by_cases e : k = j
        · rw [if_pos e, if_pos e]; exact hf (h0 k hk)
        · rw [if_neg e, if_neg e]; exact h0 j hj)
    · rw [dif_neg hk, dif_neg hk]; exact .error _
theorem Matrix4x4.rel_transpose  : (M4 ρ ⇒ M4 ρ) Matrix4x4.transpose Matrix4x4.transpose := by
  rintro _ _ h0; refine M4.mk ?_ ?_ ?_ ?_ ?_ ?_ ?_ ?_ ?_ ?_ ?_ ?_ ?_ ?_ ?_ ?_ <;> exact h0 _ _
theorem Matrix4x4.rel_mul_scalar [Kept ρ] : (M4 ρ ⇒ ρ ⇒ M4 ρ) (fun (a : Matrix4x4 S) (s : S) => a * s) (fun (a : Matrix4x4 T) (s : T) => a * s) := by
  rintro _ _ h0 _ _ _; intro k hk
  show ρ (Vector.ofFn _)[k] (Vector.ofFn _)[k]
  rw [Vector.getElem_ofFn, Vector.getElem_ofFn]
  exact Kept.mul (h0 _ _) ‹_›
theorem Matrix4x4.rel_scalar_mul [Kept ρ] : (ρ ⇒ M4 ρ ⇒ M4 ρ) (fun (s : S) (a : Matrix4x4 S) => s * a) (fun (s : T) (a : Matrix4x4 T) => s * a) := by
  rintro _ _ _ _ _ h1; intro k hk
  show ρ (Vector.ofFn _)[k] (Vector.ofFn _)[k]
  rw [Vector.getElem_ofFn, Vector.getElem_ofFn]
  exact Kept.mul (h1 _ _) ‹_›
theorem Matrix4x4.rel_div_scalar [KeptDiv ρ] : (M4 ρ ⇒ ρ ⇒ M4 ρ) (fun (a : Matrix4x4 S) (s : S) => a / s) (fun (a : Matrix4x4 T) (s : T) => a / s) := by
  rintro _ _ h0 _ _ _; intro k hk
  show ρ (Vector.ofFn _)[k] (Vector.ofFn _)[k]
  rw [Vector.getElem_ofFn, Vector.getElem_ofFn]
  exact KeptDiv.div (h0 _ _) ‹_›
theorem Matrix4x4.rel_mulAssign [Kept ρ] : (M4 ρ ⇒ ρ ⇒ M4 ρ) Matrix4x4.mulAssign Matrix4x4.mulAssign := by
  rintro _ _ h0 _ _ _; intro k hk
  show ρ (Vector.map _ _)[k] (Vector.map _ _)[k]
  rw [Vector.getElem_map, Vector.getElem_map]
  exact Kept.mul (h0 _ _) ‹_›
theorem Matrix4x4.rel_divAssign [KeptDiv ρ] : (M4 ρ ⇒ ρ ⇒ M4 ρ) Matrix4x4.divAssign Matrix4x4.divAssign := by
  rintro _ _ h0 _ _ _; intro k hk
  show ρ (Vector.map _ _)[k] (Vector.map _ _)[k]
  rw [Vector.getElem_map, Vector.getElem_map]
  exact KeptDiv.div (h0 _ _) ‹_›
theorem Matrix4x4.rel_mul_point [Kept ρ] [KeptDiv ρ] : (M4 ρ ⇒ P3 ρ ⇒ P3 ρ) (fun (a : Matrix4x4 S) (p : Point3 S) => a * p) (fun (a : Matrix4x4 T) (p : Point3 T) => a * p) := by
  rintro _ _ h0 _ _ ⟨_, _, _⟩; param h0 h0
theorem Matrix4x4.rel_point_mul [Kept ρ] [KeptDiv ρ] : (P3 ρ ⇒ M4 ρ ⇒ P3 ρ) (fun (p : Point3 S) (a : Matrix4x4 S) => p * a) (fun (p : Point3 T) (a : Matrix4x4 T) => p * a) := by
  rintro _ _ ⟨_, _, _⟩ _ _ h1; param h1 h1
theorem Matrix4x4.rel_mul_vector [Kept ρ] : (M4 ρ ⇒ V3 ρ ⇒ V3 ρ) (fun (a : Matrix4x4 S) (v : Vector3 S) => a * v) (fun (a : Matrix4x4 T) (v : Vector3 T) => a * v) := by
  rintro _ _ h0 _ _ ⟨_, _, _⟩; param h0 h0
theorem Matrix4x4.rel_vector_mul [Kept ρ] : (V3 ρ ⇒ M4 ρ ⇒ V3 ρ) (fun (v : Vector3 S) (a : Matrix4x4 S) => v * a) (fun (v : Vector3 T) (a : Matrix4x4 T) => v * a) := by
  rintro _ _ ⟨_, _, _⟩ _ _ h1; param h1 h1
theorem Matrix4x4.rel_mul [Kept ρ] : (M4 ρ ⇒ M4 ρ ⇒ M4 ρ) (fun (a : Matrix4x4 S) (b : Matrix4x4 S) => a * b) (fun (a : Matrix4x4 T) (b : Matrix4x4 T) => a * b) := by
  rintro _ _ h0 _ _ h1; refine M4.mk ?_ ?_ ?_ ?_ ?_ ?_ ?_ ?_ ?_ ?_ ?_ ?_ ?_ ?_ ?_ ?_ <;> param h0 h1
theorem Matrix4x4.rel_beq [Kept ρ] : (M4 ρ ⇒ M4 ρ ⇒ Eq) (fun (a : Matrix4x4 S) (b : Matrix4x4 S) => a == b) (fun (a : Matrix4x4 T) (b : Matrix4x4 T) => a == b) := by
  rintro _ _ h0 _ _ h1; param h0 h1
theorem Matrix4x4.rel_cofactor [Kept ρ] {a : Matrix4x4 S} {b : Matrix4x4 T} (h0 : M4 ρ a b) (i j : Fin 4) :
    ρ (a.cofactor i j) (b.cofactor i j) := by
  have hs : ∀ r c, ρ (a.sub i j r c) (b.sub i j r c) := fun r c => h0 _ _
  have one' : ρ (if (i.val + j.val) % 2 == 0 then one else -one) (if (i.val + j.val) % 2 == 0 then one else -one) :=
    ite_rel rfl Kept.one (Kept.neg Kept.one)
  exact Kept.mul one' (Kept.sub (Kept.sub (Kept.sub (Kept.add (Kept.add (Kept.mul (Kept.mul (hs _ _) (hs _ _)) (hs _ _))
    (Kept.mul (Kept.mul (hs _ _) (hs _ _)) (hs _ _))) (Kept.mul (Kept.mul (hs _ _) (hs _ _)) (hs _ _)))
    (Kept.mul (Kept.mul (hs _ _) (hs _ _)) (hs _ _))) (Kept.mul (Kept.mul (hs _ _) (hs _ _)) (hs _ _)))
    (Kept.mul (Kept.mul (hs _ _) (hs _ _)) (hs _ _)))
theorem Matrix4x4.rel_adjugate [Kept ρ] {a : Matrix4x4 S} {b : Matrix4x4 T} (h0 : M4 ρ a b) : M4 ρ a.adjugate b.adjugate := by
  have hc := Matrix4x4.rel_cofactor h0
  refine M4.mk ?_ ?_ ?_ ?_ ?_ ?_ ?_ ?_ ?_ ?_ ?_ ?_ ?_ ?_ ?_ ?_ <;> exact hc _ _
theorem Matrix4x4.rel_inverse [Kept ρ] [KeptDiv ρ] : (M4 ρ ⇒ Outcome (M4 ρ)) Matrix4x4.inverse Matrix4x4.inverse := by
  rintro a b h0
  have ha := Matrix4x4.rel_adjugate h0
  have hd : ρ (a.detOf a.adjugate) (b.detOf b.adjugate) := by
    unfold Matrix4x4.detOf
    param h0 ha
  exact ite_rel (not_rel (Kept.beq (ρ := ρ) hd Kept.zero)) (.ok (Matrix4x4.rel_div_scalar ha hd)) (.error _)
theorem Transform3.rel_new  : (M4 ρ ⇒ M4 ρ ⇒ T3 ρ) Transform3.new Transform3.new := by
  rintro _ _ h0 _ _ h1; exact ⟨h0, h1⟩
theorem Transform3.rel_identity [Kept ρ] : T3 ρ Transform3.identity Transform3.identity := by
  exact ⟨Matrix4x4.rel_identity, Matrix4x4.rel_identity⟩
theorem Transform3.rel_translate [Kept ρ] : (V3 ρ ⇒ T3 ρ) Transform3.translate Transform3.translate := by
  rintro _ _ hv; exact ⟨Matrix4x4.rel_translate hv, Matrix4x4.rel_translate (Vector3.rel_neg hv)⟩
theorem Transform3.rel_rotateX [Kept ρ] [KeptTrig ρ] : (ρ ⇒ T3 ρ) Transform3.rotateX Transform3.rotateX := by
  rintro _ _ _; exact ⟨Matrix4x4.rel_rotateX ‹_›, Matrix4x4.rel_transpose (Matrix4x4.rel_rotateX ‹_›)⟩
theorem Transform3.rel_rotateY [Kept ρ] [KeptTrig ρ] : (ρ ⇒ T3 ρ) Transform3.rotateY Transform3.rotateY := by
  rintro _ _ _; exact ⟨Matrix4x4.rel_rotateY ‹_›, Matrix4x4.rel_transpose (Matrix4x4.rel_rotateY ‹_›)⟩
theorem Transform3.rel_rotateZ [Kept ρ] [KeptTrig ρ] : (ρ ⇒ T3 ρ) Transform3.rotateZ Transform3.rotateZ := by
  rintro _ _ _; exact ⟨Matrix4x4.rel_rotateZ ‹_›, Matrix4x4.rel_transpose (Matrix4x4.rel_rotateZ ‹_›)⟩
theorem Transform3.rel_rotateAxis [Kept ρ] [KeptDiv ρ] [KeptTrig ρ] : (V3 ρ ⇒ ρ ⇒ T3 ρ) Transform3.rotateAxis Transform3.rotateAxis := by
  rintro _ _ hv _ _ _; exact ⟨Matrix4x4.rel_rotateAxis hv ‹_›, Matrix4x4.rel_transpose (Matrix4x4.rel_rotateAxis hv ‹_›)⟩
theorem Transform3.rel_scale [Kept ρ] [KeptDiv ρ] : (ρ ⇒ ρ ⇒ ρ ⇒ T3 ρ) Transform3.scale Transform3.scale := by
  rintro _ _ s0 _ _ s1 _ _ s2; exact ⟨Matrix4x4.rel_scale s0 s1 s2, Matrix4x4.rel_scale (KeptDiv.div Kept.one s0) (KeptDiv.div Kept.one s1) (KeptDiv.div Kept.one s2)⟩
theorem Transform3.rel_scaleUniform [Kept ρ] [KeptDiv ρ] : (ρ ⇒ T3 ρ) Transform3.scaleUniform Transform3.scaleUniform := by
  rintro _ _ s0; exact ⟨Matrix4x4.rel_scaleUniform s0, Matrix4x4.rel_scaleUniform (KeptDiv.div Kept.one s0)⟩
theorem Transform3.rel_lookAt [Kept ρ] [KeptDiv ρ] : (P3 ρ ⇒ P3 ρ ⇒ V3 ρ ⇒ Outcome (T3 ρ)) Transform3.lookAt Transform3.lookAt := by
  intro o o' ho t t' ht u u' hu
  have hi := Matrix4x4.rel_inverseLookAt ho ht hu
  have := Matrix4x4.rel_inverse hi
  simp only [Transform3.lookAt]
  revert this
  generalize (Matrix4x4.inverseLookAt o t u).inverse = x
  generalize (Matrix4x4.inverseLookAt o' t' u').inverse = y
  rintro (e | h)
  · exact .error _
  · exact .ok ⟨h, hi⟩
theorem Transform3.rel_tryFrom [Kept ρ] [KeptDiv ρ] : (M4 ρ ⇒ Outcome (T3 ρ)) Transform3.tryFrom Transform3.tryFrom := by
  intro a b h
  have := Matrix4x4.rel_inverse h
  unfold Transform3.tryFrom
  revert this
  generalize Matrix4x4.inverse a = x
  generalize Matrix4x4.inverse b = y
  rintro (e | h')
  · exact .error _
  · exact .ok ⟨h, h'⟩
theorem Transform3.rel_andThen [Kept ρ] : (T3 ρ ⇒ T3 ρ ⇒ T3 ρ) Transform3.andThen Transform3.andThen := by
  rintro _ _ ⟨f0, i0⟩ _ _ ⟨f1, i1⟩; exact ⟨Matrix4x4.rel_mul f1 f0, Matrix4x4.rel_mul i0 i1⟩
theorem Transform3.rel_inv  : (T3 ρ ⇒ T3 ρ) Transform3.inv Transform3.inv := by
  rintro _ _ ⟨f0, i0⟩; exact ⟨i0, f0⟩
theorem Transform3.rel_beq [Kept ρ] : (T3 ρ ⇒ T3 ρ ⇒ Eq) (fun (a : Transform3 S) (b : Transform3 S) => a == b) (fun (a : Transform3 T) (b : Transform3 T) => a == b) := by
  rintro _ _ ⟨f0, i0⟩ _ _ ⟨f1, i1⟩; exact and_rel (Matrix4x4.rel_beq f0 f1) (Matrix4x4.rel_beq i0 i1)
theorem Transform3.rel_transform_point [Kept ρ] [KeptDiv ρ] : (T3 ρ ⇒ P3 ρ ⇒ P3 ρ) (fun (t : Transform3 S) (a : Point3 S) => Transform.transform t a) (fun (t : Transform3 T) (a : Point3 T) => Transform.transform t a) := by
  rintro _ _ ⟨f0, i0⟩ _ _ ha; exact Matrix4x4.rel_mul_point f0 ha
theorem Transform3.rel_transform_vector [Kept ρ] : (T3 ρ ⇒ V3 ρ ⇒ V3 ρ) (fun (t : Transform3 S) (a : Vector3 S) => Transform.transform t a) (fun (t : Transform3 T) (a : Vector3 T) => Transform.transform t a) := by
  rintro _ _ ⟨f0, i0⟩ _ _ ha; exact Matrix4x4.rel_mul_vector f0 ha
theorem Transform3.rel_transform_ray [Kept ρ] [KeptDiv ρ] : (T3 ρ ⇒ R3 ρ ⇒ R3 ρ) (fun (t : Transform3 S) (a : Ray3 S) => Transform.transform t a) (fun (t : Transform3 T) (a : Ray3 T) => Transform.transform t a) := by
  rintro _ _ ⟨f0, i0⟩ _ _ ha; exact ⟨Matrix4x4.rel_mul_point f0 ha.1, Matrix4x4.rel_mul_vector f0 ha.2⟩
/-- The point the loop body adds (src/transform3.rs:516-519), named for the proof. -/
def Transform3.boxCorner {S : Type} [Scalar S] (o : Point3 S) (d : Vector3 S) (i : Nat) : Point3 S :=
  let corner := o
  let corner := if i &&& 0b001 != 0 then { corner with x := corner.x + d.x } else corner
  let corner := if i &&& 0b010 != 0 then { corner with y := corner.y + d.y } else corner
  if i &&& 0b100 != 0 then { corner with z := corner.z + d.z } else corner
theorem Transform3.rel_boxStep [Kept ρ] [KeptMin ρ] {o : Point3 S} {o' : Point3 T} {d : Vector3 S} {d' : Vector3 T} (ho : P3 ρ o o') (hd : V3 ρ d d')
    {a : Point3 S × Point3 S} {a' : Point3 T × Point3 T} (ha : Both (P3 ρ) (P3 ρ) a a') (i : Nat) :
    Both (P3 ρ) (P3 ρ) (Transform3.boxStep o d a i) (Transform3.boxStep o' d' a' i) := by
  have hc : P3 ρ (Transform3.boxCorner o d i) (Transform3.boxCorner o' d' i) := by
    unfold Transform3.boxCorner
    obtain ⟨_, _, _⟩ := ho; obtain ⟨_, _, _⟩ := hd
    by_cases c0 : (i &&& 0b001 != 0) = true <;> by_cases c1 : (i &&& 0b010 != 0) = true <;> by_cases c2 : (i &&& 0b100 != 0) = true <;>
      simp only [c0, c1, c2, if_true, if_false, Bool.false_eq_true] <;> para
  exact ⟨Point3.rel_min ha.1 hc, Point3.rel_max ha.2 hc⟩
theorem Transform3.rel_transform_box' {σ : S → T → Prop} [Kept ρ] [KeptDiv ρ] [Kept σ] [KeptMin σ] (hs : ∀ a b, ρ a b → σ a b) :
    (T3 ρ ⇒ B3 ρ ⇒ B3 σ) (fun (t : Transform3 S) (a : BoundingBox3 S) => Transform.transform t a) (fun (t : Transform3 T) (a : BoundingBox3 T) => Transform.transform t a) := by
  rintro t t' ht b b' hb
  have ho := Transform3.rel_transform_point ht hb.1
  have hd := Transform3.rel_transform_vector ht (BoundingBox3.rel_diagonal hb)
  have ho' : P3 σ (Transform.transform t b.min) (Transform.transform t' b'.min) := ⟨hs _ _ ho.1, hs _ _ ho.2.1, hs _ _ ho.2.2⟩
  have hd' : V3 σ (Transform.transform t b.diagonal) (Transform.transform t' b'.diagonal) := ⟨hs _ _ hd.1, hs _ _ hd.2.1, hs _ _ hd.2.2⟩
  have hl : ∀ (l : List Nat) (a : Point3 S × Point3 S) (a' : Point3 T × Point3 T), Both (P3 σ) (P3 σ) a a' →
      Both (P3 σ) (P3 σ) (l.foldl (Transform3.boxStep (Transform.transform t b.min) (Transform.transform t b.diagonal)) a)
        (l.foldl (Transform3.boxStep (Transform.transform t' b'.min) (Transform.transform t' b'.diagonal)) a') := by
    intro l
    induction l with
    | nil => exact fun _ _ h => h
    | cons i l ih => exact fun a a' h => ih _ _ (Transform3.rel_boxStep ho' hd' h i)
  have := hl [1, 2, 3, 4, 5, 6, 7] (_, _) (_, _) ⟨ho', ho'⟩
  exact BoundingBox3.rel_new this.1 this.2
theorem Transform3.rel_transform_box [Kept ρ] [KeptMin ρ] [KeptDiv ρ] : (T3 ρ ⇒ B3 ρ ⇒ B3 ρ) (fun (t : Transform3 S) (a : BoundingBox3 S) => Transform.transform t a) (fun (t : Transform3 T) (a : BoundingBox3 T) => Transform.transform t a) :=
  rel_transform_box' fun _ _ h => h
end

end VecMath

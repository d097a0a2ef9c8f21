import Verif.Lemmas.Param
/-! # C115: every function of the crate keeps every relation that the scalar operations keep (2D) -/

namespace VecMath
open Scalar Relator
set_option linter.unusedSectionVars false
set_option linter.unusedVariables false
section
variable {S T : Type} [Scalar S] [Scalar T] {ρ : S → T → Prop}

theorem Scalar.rel_min [KeptMin ρ] : (ρ ⇒ ρ ⇒ ρ) (Api.min (T := S)) (Api.min (T := T)) := by
  rintro _ _ _ _ _ _; para
theorem Scalar.rel_max [KeptMin ρ] : (ρ ⇒ ρ ⇒ ρ) (Api.max (T := S)) (Api.max (T := T)) := by
  rintro _ _ _ _ _ _; para
theorem Scalar.rel_length [Kept ρ] : (ρ ⇒ ρ) (Api.length (T := S)) (Api.length (T := T)) := by
  rintro _ _ _; para
theorem Scalar.rel_isShorterThan [Kept ρ] : (ρ ⇒ ρ ⇒ Eq) (RelativeLength.isShorterThan (T := S)) (RelativeLength.isShorterThan (T := T)) := by
  rintro _ _ _ _ _ _; para
theorem Scalar.rel_isLongerThan [Kept ρ] : (ρ ⇒ ρ ⇒ Eq) (RelativeLength.isLongerThan (T := S)) (RelativeLength.isLongerThan (T := T)) := by
  rintro _ _ _ _ _ _; para
theorem Scalar.rel_shortest [Kept ρ] : (ρ ⇒ ρ ⇒ ρ) (Api.shortest (T := S)) (Api.shortest (T := T)) := by
  rintro _ _ _ _ _ _; para
theorem Scalar.rel_longest [Kept ρ] : (ρ ⇒ ρ ⇒ ρ) (Api.longest (T := S)) (Api.longest (T := T)) := by
  rintro _ _ _ _ _ _; para
theorem Scalar.rel_distance [Kept ρ] : (ρ ⇒ ρ ⇒ ρ) (Api.distance (T := S)) (Api.distance (T := T)) := by
  rintro _ _ _ _ _ _; para
theorem Scalar.rel_isCloserTo [Kept ρ] : (ρ ⇒ ρ ⇒ ρ ⇒ Eq) (RelativeDistance.isCloserTo (T := S)) (RelativeDistance.isCloserTo (T := T)) := by
  rintro _ _ _ _ _ _ _ _ _; para
theorem Scalar.rel_isFartherFrom [Kept ρ] : (ρ ⇒ ρ ⇒ ρ ⇒ Eq) (RelativeDistance.isFartherFrom (T := S)) (RelativeDistance.isFartherFrom (T := T)) := by
  rintro _ _ _ _ _ _ _ _ _; para
theorem Scalar.rel_closest [Kept ρ] : (ρ ⇒ ρ ⇒ ρ ⇒ ρ) (Api.closest (T := S)) (Api.closest (T := T)) := by
  rintro _ _ _ _ _ _ _ _ _; para
theorem Scalar.rel_farthest [Kept ρ] : (ρ ⇒ ρ ⇒ ρ ⇒ ρ) (Api.farthest (T := S)) (Api.farthest (T := T)) := by
  rintro _ _ _ _ _ _ _ _ _; para
theorem Vector2.rel_new  : (ρ ⇒ ρ ⇒ V2 ρ) Vector2.new Vector2.new := by
  rintro _ _ _ _ _ _; para
theorem Vector2.rel_fn  : (ρ ⇒ ρ ⇒ V2 ρ) vector2 vector2 := by
  rintro _ _ _ _ _ _; para
theorem Vector2.rel_zero [Kept ρ] : V2 ρ Vector2.zero Vector2.zero := by
  para
theorem Vector2.rel_xAxis [Kept ρ] : V2 ρ Vector2.xAxis Vector2.xAxis := by
  para
theorem Vector2.rel_yAxis [Kept ρ] : V2 ρ Vector2.yAxis Vector2.yAxis := by
  para
theorem Vector2.rel_axis [Kept ρ] : (Eq ⇒ V2 ρ) Vector2.axis Vector2.axis := by
  rintro d0 _ rfl; cases d0 <;> para
theorem Vector2.rel_floor [Kept ρ] : (V2 ρ ⇒ V2 ρ) Vector2.floor Vector2.floor := by
  rintro _ _ ⟨_, _⟩; para
theorem Vector2.rel_ceil [Kept ρ] : (V2 ρ ⇒ V2 ρ) Vector2.ceil Vector2.ceil := by
  rintro _ _ ⟨_, _⟩; para
theorem Vector2.rel_round [Kept ρ] : (V2 ρ ⇒ V2 ρ) Vector2.round Vector2.round := by
  rintro _ _ ⟨_, _⟩; para
theorem Vector2.rel_trunc [Kept ρ] : (V2 ρ ⇒ V2 ρ) Vector2.trunc Vector2.trunc := by
  rintro _ _ ⟨_, _⟩; para
theorem Vector2.rel_fract [Kept ρ] : (V2 ρ ⇒ V2 ρ) Vector2.fract Vector2.fract := by
  rintro _ _ ⟨_, _⟩; para
theorem Vector2.rel_abs [Kept ρ] : (V2 ρ ⇒ V2 ρ) Vector2.abs Vector2.abs := by
  rintro _ _ ⟨_, _⟩; para
theorem Vector2.rel_minDimension [Kept ρ] : (V2 ρ ⇒ Eq) Vector2.minDimension Vector2.minDimension := by
  rintro _ _ ⟨_, _⟩; para
theorem Vector2.rel_maxDimension [Kept ρ] : (V2 ρ ⇒ Eq) Vector2.maxDimension Vector2.maxDimension := by
  rintro _ _ ⟨_, _⟩; para
theorem Vector2.rel_index  : (V2 ρ ⇒ Eq ⇒ ρ) Vector2.index Vector2.index := by
  rintro _ _ ⟨_, _⟩ d1 _ rfl; cases d1 <;> para
theorem Vector2.rel_permute  : (V2 ρ ⇒ Eq ⇒ Eq ⇒ V2 ρ) Vector2.permute Vector2.permute := by
  rintro _ _ ⟨_, _⟩ d1 _ rfl d2 _ rfl; cases d1 <;> cases d2 <;> para
theorem Vector2.rel_indexMut  : (V2 ρ ⇒ Eq ⇒ (ρ ⇒ ρ) ⇒ V2 ρ) Vector2.indexMut Vector2.indexMut := by
  rintro _ _ ⟨_, _⟩ d1 _ rfl _ _ hf; cases d1
  · exact ⟨hf ‹_›, ‹_›⟩
  · exact ⟨‹_›, hf ‹_›⟩
theorem Vector2.rel_min [KeptMin ρ] : (V2 ρ ⇒ V2 ρ ⇒ V2 ρ) Api.min Api.min := by
  rintro _ _ ⟨_, _⟩ _ _ ⟨_, _⟩; para
theorem Vector2.rel_max [KeptMin ρ] : (V2 ρ ⇒ V2 ρ ⇒ V2 ρ) Api.max Api.max := by
  rintro _ _ ⟨_, _⟩ _ _ ⟨_, _⟩; para
theorem Vector2.rel_beq [Kept ρ] : (V2 ρ ⇒ V2 ρ ⇒ Eq) (fun (a : Vector2 S) (b : Vector2 S) => a == b) (fun (a : Vector2 T) (b : Vector2 T) => a == b) := by
  rintro _ _ ⟨_, _⟩ _ _ ⟨_, _⟩; para
theorem Vector2.rel_neg [Kept ρ] : (V2 ρ ⇒ V2 ρ) (fun (a : Vector2 S) => -a) (fun (a : Vector2 T) => -a) := by
  rintro _ _ ⟨_, _⟩; para
theorem Vector2.rel_mul [Kept ρ] : (V2 ρ ⇒ ρ ⇒ V2 ρ) (fun (a : Vector2 S) (s : S) => a * s) (fun (a : Vector2 T) (s : T) => a * s) := by
  rintro _ _ ⟨_, _⟩ _ _ _; para
theorem Vector2.rel_smul [Kept ρ] : (ρ ⇒ V2 ρ ⇒ V2 ρ) (fun (s : S) (a : Vector2 S) => s * a) (fun (s : T) (a : Vector2 T) => s * a) := by
  rintro _ _ _ _ _ ⟨_, _⟩; para
theorem Vector2.rel_div [Kept ρ] [KeptDiv ρ] : (V2 ρ ⇒ ρ ⇒ V2 ρ) (fun (a : Vector2 S) (s : S) => a / s) (fun (a : Vector2 T) (s : T) => a / s) := by
  rintro _ _ ⟨_, _⟩ _ _ _; para
theorem Vector2.rel_mulAssign [Kept ρ] : (V2 ρ ⇒ ρ ⇒ V2 ρ) Vector2.mulAssign Vector2.mulAssign := by
  rintro _ _ ⟨_, _⟩ _ _ _; para
theorem Vector2.rel_divAssign [Kept ρ] [KeptDiv ρ] : (V2 ρ ⇒ ρ ⇒ V2 ρ) Vector2.divAssign Vector2.divAssign := by
  rintro _ _ ⟨_, _⟩ _ _ _; para
theorem Vector2.rel_add [Kept ρ] : (V2 ρ ⇒ V2 ρ ⇒ V2 ρ) (fun (a : Vector2 S) (v : Vector2 S) => a + v) (fun (a : Vector2 T) (v : Vector2 T) => a + v) := by
  rintro _ _ ⟨_, _⟩ _ _ ⟨_, _⟩; para
theorem Vector2.rel_sub [Kept ρ] : (V2 ρ ⇒ V2 ρ ⇒ V2 ρ) (fun (a : Vector2 S) (v : Vector2 S) => a - v) (fun (a : Vector2 T) (v : Vector2 T) => a - v) := by
  rintro _ _ ⟨_, _⟩ _ _ ⟨_, _⟩; para
theorem Vector2.rel_addAssign [Kept ρ] : (V2 ρ ⇒ V2 ρ ⇒ V2 ρ) Vector2.addAssign Vector2.addAssign := by
  rintro _ _ ⟨_, _⟩ _ _ ⟨_, _⟩; para
theorem Vector2.rel_subAssign [Kept ρ] : (V2 ρ ⇒ V2 ρ ⇒ V2 ρ) Vector2.subAssign Vector2.subAssign := by
  rintro _ _ ⟨_, _⟩ _ _ ⟨_, _⟩; para
theorem Vector2.rel_dot [Kept ρ] : (V2 ρ ⇒ V2 ρ ⇒ ρ) Api.dot Api.dot := by
  rintro _ _ ⟨_, _⟩ _ _ ⟨_, _⟩; para
theorem Vector2.rel_length [Kept ρ] : (V2 ρ ⇒ ρ) Api.length Api.length := by
  rintro _ _ ⟨_, _⟩; para
theorem Vector2.rel_isShorterThan [Kept ρ] : (V2 ρ ⇒ V2 ρ ⇒ Eq) RelativeLength.isShorterThan RelativeLength.isShorterThan := by
  rintro _ _ ⟨_, _⟩ _ _ ⟨_, _⟩; para
theorem Vector2.rel_isLongerThan [Kept ρ] : (V2 ρ ⇒ V2 ρ ⇒ Eq) RelativeLength.isLongerThan RelativeLength.isLongerThan := by
  rintro _ _ ⟨_, _⟩ _ _ ⟨_, _⟩; para
theorem Vector2.rel_shortest [Kept ρ] : (V2 ρ ⇒ V2 ρ ⇒ V2 ρ) Api.shortest Api.shortest := by
  rintro _ _ ⟨_, _⟩ _ _ ⟨_, _⟩; para
theorem Vector2.rel_longest [Kept ρ] : (V2 ρ ⇒ V2 ρ ⇒ V2 ρ) Api.longest Api.longest := by
  rintro _ _ ⟨_, _⟩ _ _ ⟨_, _⟩; para
theorem Vector2.rel_fromPoint  : (P2 ρ ⇒ V2 ρ) Vector2.fromPoint Vector2.fromPoint := by
  rintro _ _ ⟨_, _⟩; para
theorem Vector2.rel_normalize [Kept ρ] [KeptDiv ρ] : (V2 ρ ⇒ V2 ρ) Vector2.normalize Vector2.normalize := by
  rintro _ _ ⟨_, _⟩; para
theorem Point2.rel_new  : (ρ ⇒ ρ ⇒ P2 ρ) Point2.new Point2.new := by
  rintro _ _ _ _ _ _; para
theorem Point2.rel_fn  : (ρ ⇒ ρ ⇒ P2 ρ) point2 point2 := by
  rintro _ _ _ _ _ _; para
theorem Point2.rel_origin [Kept ρ] : P2 ρ Point2.origin Point2.origin := by
  para
theorem Point2.rel_floor [Kept ρ] : (P2 ρ ⇒ P2 ρ) Point2.floor Point2.floor := by
  rintro _ _ ⟨_, _⟩; para
theorem Point2.rel_ceil [Kept ρ] : (P2 ρ ⇒ P2 ρ) Point2.ceil Point2.ceil := by
  rintro _ _ ⟨_, _⟩; para
theorem Point2.rel_round [Kept ρ] : (P2 ρ ⇒ P2 ρ) Point2.round Point2.round := by
  rintro _ _ ⟨_, _⟩; para
theorem Point2.rel_trunc [Kept ρ] : (P2 ρ ⇒ P2 ρ) Point2.trunc Point2.trunc := by
  rintro _ _ ⟨_, _⟩; para
theorem Point2.rel_fract [Kept ρ] : (P2 ρ ⇒ P2 ρ) Point2.fract Point2.fract := by
  rintro _ _ ⟨_, _⟩; para
theorem Point2.rel_abs [Kept ρ] : (P2 ρ ⇒ P2 ρ) Point2.abs Point2.abs := by
  rintro _ _ ⟨_, _⟩; para
theorem Point2.rel_minDimension [Kept ρ] : (P2 ρ ⇒ Eq) Point2.minDimension Point2.minDimension := by
  rintro _ _ ⟨_, _⟩; para
theorem Point2.rel_maxDimension [Kept ρ] : (P2 ρ ⇒ Eq) Point2.maxDimension Point2.maxDimension := by
  rintro _ _ ⟨_, _⟩; para
theorem Point2.rel_index  : (P2 ρ ⇒ Eq ⇒ ρ) Point2.index Point2.index := by
  rintro _ _ ⟨_, _⟩ d1 _ rfl; cases d1 <;> para
theorem Point2.rel_permute  : (P2 ρ ⇒ Eq ⇒ Eq ⇒ P2 ρ) Point2.permute Point2.permute := by
  rintro _ _ ⟨_, _⟩ d1 _ rfl d2 _ rfl; cases d1 <;> cases d2 <;> para
theorem Point2.rel_indexMut  : (P2 ρ ⇒ Eq ⇒ (ρ ⇒ ρ) ⇒ P2 ρ) Point2.indexMut Point2.indexMut := by
  rintro _ _ ⟨_, _⟩ d1 _ rfl _ _ hf; cases d1
  · exact ⟨hf ‹_›, ‹_›⟩
  · exact ⟨‹_›, hf ‹_›⟩
theorem Point2.rel_min [KeptMin ρ] : (P2 ρ ⇒ P2 ρ ⇒ P2 ρ) Api.min Api.min := by
  rintro _ _ ⟨_, _⟩ _ _ ⟨_, _⟩; para
theorem Point2.rel_max [KeptMin ρ] : (P2 ρ ⇒ P2 ρ ⇒ P2 ρ) Api.max Api.max := by
  rintro _ _ ⟨_, _⟩ _ _ ⟨_, _⟩; para
theorem Point2.rel_beq [Kept ρ] : (P2 ρ ⇒ P2 ρ ⇒ Eq) (fun (a : Point2 S) (b : Point2 S) => a == b) (fun (a : Point2 T) (b : Point2 T) => a == b) := by
  rintro _ _ ⟨_, _⟩ _ _ ⟨_, _⟩; para
theorem Point2.rel_neg [Kept ρ] : (P2 ρ ⇒ P2 ρ) (fun (a : Point2 S) => -a) (fun (a : Point2 T) => -a) := by
  rintro _ _ ⟨_, _⟩; para
theorem Point2.rel_mul [Kept ρ] : (P2 ρ ⇒ ρ ⇒ P2 ρ) (fun (a : Point2 S) (s : S) => a * s) (fun (a : Point2 T) (s : T) => a * s) := by
  rintro _ _ ⟨_, _⟩ _ _ _; para
theorem Point2.rel_smul [Kept ρ] : (ρ ⇒ P2 ρ ⇒ P2 ρ) (fun (s : S) (a : Point2 S) => s * a) (fun (s : T) (a : Point2 T) => s * a) := by
  rintro _ _ _ _ _ ⟨_, _⟩; para
theorem Point2.rel_div [Kept ρ] [KeptDiv ρ] : (P2 ρ ⇒ ρ ⇒ P2 ρ) (fun (a : Point2 S) (s : S) => a / s) (fun (a : Point2 T) (s : T) => a / s) := by
  rintro _ _ ⟨_, _⟩ _ _ _; para
theorem Point2.rel_mulAssign [Kept ρ] : (P2 ρ ⇒ ρ ⇒ P2 ρ) Point2.mulAssign Point2.mulAssign := by
  rintro _ _ ⟨_, _⟩ _ _ _; para
theorem Point2.rel_divAssign [Kept ρ] [KeptDiv ρ] : (P2 ρ ⇒ ρ ⇒ P2 ρ) Point2.divAssign Point2.divAssign := by
  rintro _ _ ⟨_, _⟩ _ _ _; para
theorem Point2.rel_add [Kept ρ] : (P2 ρ ⇒ V2 ρ ⇒ P2 ρ) (fun (a : Point2 S) (v : Vector2 S) => a + v) (fun (a : Point2 T) (v : Vector2 T) => a + v) := by
  rintro _ _ ⟨_, _⟩ _ _ ⟨_, _⟩; para
theorem Point2.rel_sub [Kept ρ] : (P2 ρ ⇒ V2 ρ ⇒ P2 ρ) (fun (a : Point2 S) (v : Vector2 S) => a - v) (fun (a : Point2 T) (v : Vector2 T) => a - v) := by
  rintro _ _ ⟨_, _⟩ _ _ ⟨_, _⟩; para
theorem Point2.rel_addAssign [Kept ρ] : (P2 ρ ⇒ V2 ρ ⇒ P2 ρ) Point2.addAssign Point2.addAssign := by
  rintro _ _ ⟨_, _⟩ _ _ ⟨_, _⟩; para
theorem Point2.rel_subAssign [Kept ρ] : (P2 ρ ⇒ V2 ρ ⇒ P2 ρ) Point2.subAssign Point2.subAssign := by
  rintro _ _ ⟨_, _⟩ _ _ ⟨_, _⟩; para
theorem Point2.rel_diff [Kept ρ] : (P2 ρ ⇒ P2 ρ ⇒ V2 ρ) (fun (a : Point2 S) (b : Point2 S) => a - b) (fun (a : Point2 T) (b : Point2 T) => a - b) := by
  rintro _ _ ⟨_, _⟩ _ _ ⟨_, _⟩; para
theorem Point2.rel_fromVector  : (V2 ρ ⇒ P2 ρ) Point2.fromVector Point2.fromVector := by
  rintro _ _ ⟨_, _⟩; para
theorem Point2.rel_distance [Kept ρ] : (P2 ρ ⇒ P2 ρ ⇒ ρ) Api.distance Api.distance := by
  rintro _ _ ⟨_, _⟩ _ _ ⟨_, _⟩; para
theorem Point2.rel_isCloserTo [Kept ρ] : (P2 ρ ⇒ P2 ρ ⇒ P2 ρ ⇒ Eq) RelativeDistance.isCloserTo RelativeDistance.isCloserTo := by
  rintro _ _ ⟨_, _⟩ _ _ ⟨_, _⟩ _ _ ⟨_, _⟩; para
theorem Point2.rel_isFartherFrom [Kept ρ] : (P2 ρ ⇒ P2 ρ ⇒ P2 ρ ⇒ Eq) RelativeDistance.isFartherFrom RelativeDistance.isFartherFrom := by
  rintro _ _ ⟨_, _⟩ _ _ ⟨_, _⟩ _ _ ⟨_, _⟩; para
theorem Point2.rel_closest [Kept ρ] : (P2 ρ ⇒ P2 ρ ⇒ P2 ρ ⇒ P2 ρ) Api.closest Api.closest := by
  rintro _ _ ⟨_, _⟩ _ _ ⟨_, _⟩ _ _ ⟨_, _⟩; para
theorem Point2.rel_farthest [Kept ρ] : (P2 ρ ⇒ P2 ρ ⇒ P2 ρ ⇒ P2 ρ) Api.farthest Api.farthest := by
  rintro _ _ ⟨_, _⟩ _ _ ⟨_, _⟩ _ _ ⟨_, _⟩; para
theorem Ray2.rel_new  : (P2 ρ ⇒ V2 ρ ⇒ R2 ρ) Ray2.new Ray2.new := by
  rintro _ _ ⟨_, _⟩ _ _ ⟨_, _⟩; para
theorem Ray2.rel_fn  : (P2 ρ ⇒ V2 ρ ⇒ R2 ρ) ray2 ray2 := by
  rintro _ _ ⟨_, _⟩ _ _ ⟨_, _⟩; para
theorem Ray2.rel_at [Kept ρ] : (R2 ρ ⇒ ρ ⇒ P2 ρ) Ray2.at Ray2.at := by
  rintro _ _ ⟨⟨_, _⟩, ⟨_, _⟩⟩ _ _ _; para
theorem Ray2.rel_beq [Kept ρ] : (R2 ρ ⇒ R2 ρ ⇒ Eq) (fun (a : Ray2 S) (b : Ray2 S) => a == b) (fun (a : Ray2 T) (b : Ray2 T) => a == b) := by
  rintro _ _ ⟨⟨_, _⟩, ⟨_, _⟩⟩ _ _ ⟨⟨_, _⟩, ⟨_, _⟩⟩; para
theorem BoundingBox2.rel_new [KeptMin ρ] : (P2 ρ ⇒ P2 ρ ⇒ B2 ρ) BoundingBox2.new BoundingBox2.new := by
  rintro _ _ ⟨_, _⟩ _ _ ⟨_, _⟩; para
theorem BoundingBox2.rel_empty [Kept ρ] : B2 ρ BoundingBox2.empty BoundingBox2.empty := by
  para
theorem BoundingBox2.rel_infinite [Kept ρ] : B2 ρ BoundingBox2.infinite BoundingBox2.infinite := by
  para
theorem BoundingBox2.rel_width [Kept ρ] : (B2 ρ ⇒ ρ) BoundingBox2.width BoundingBox2.width := by
  rintro _ _ ⟨⟨_, _⟩, ⟨_, _⟩⟩; para
theorem BoundingBox2.rel_height [Kept ρ] : (B2 ρ ⇒ ρ) BoundingBox2.height BoundingBox2.height := by
  rintro _ _ ⟨⟨_, _⟩, ⟨_, _⟩⟩; para
theorem BoundingBox2.rel_area [Kept ρ] : (B2 ρ ⇒ ρ) BoundingBox2.area BoundingBox2.area := by
  rintro _ _ ⟨⟨_, _⟩, ⟨_, _⟩⟩; para
theorem BoundingBox2.rel_size [Kept ρ] : (B2 ρ ⇒ Both ρ ρ) BoundingBox2.size BoundingBox2.size := by
  rintro _ _ ⟨⟨_, _⟩, ⟨_, _⟩⟩; para
theorem BoundingBox2.rel_extent [Kept ρ] : (B2 ρ ⇒ Eq ⇒ ρ) BoundingBox2.extent BoundingBox2.extent := by
  rintro _ _ ⟨⟨_, _⟩, ⟨_, _⟩⟩ d1 _ rfl; cases d1 <;> para
theorem BoundingBox2.rel_diagonal [Kept ρ] : (B2 ρ ⇒ V2 ρ) BoundingBox2.diagonal BoundingBox2.diagonal := by
  rintro _ _ ⟨⟨_, _⟩, ⟨_, _⟩⟩; para
theorem BoundingBox2.rel_minDimension [Kept ρ] : (B2 ρ ⇒ Eq) BoundingBox2.minDimension BoundingBox2.minDimension := by
  rintro _ _ ⟨⟨_, _⟩, ⟨_, _⟩⟩; para
theorem BoundingBox2.rel_maxDimension [Kept ρ] : (B2 ρ ⇒ Eq) BoundingBox2.maxDimension BoundingBox2.maxDimension := by
  rintro _ _ ⟨⟨_, _⟩, ⟨_, _⟩⟩; para
theorem BoundingBox2.rel_center [Kept ρ] : (B2 ρ ⇒ P2 ρ) BoundingBox2.center BoundingBox2.center := by
  rintro _ _ ⟨⟨_, _⟩, ⟨_, _⟩⟩; para
theorem BoundingBox2.rel_overlaps [Kept ρ] : (B2 ρ ⇒ B2 ρ ⇒ Eq) BoundingBox2.overlaps BoundingBox2.overlaps := by
  rintro _ _ ⟨⟨_, _⟩, ⟨_, _⟩⟩ _ _ ⟨⟨_, _⟩, ⟨_, _⟩⟩; para
theorem BoundingBox2.rel_isInside [Kept ρ] : (B2 ρ ⇒ P2 ρ ⇒ Eq) BoundingBox2.isInside BoundingBox2.isInside := by
  rintro _ _ ⟨⟨_, _⟩, ⟨_, _⟩⟩ _ _ ⟨_, _⟩; para
theorem BoundingBox2.rel_corner  : (B2 ρ ⇒ Eq ⇒ Eq ⇒ Outcome (P2 ρ)) BoundingBox2.corner BoundingBox2.corner := by
  rintro _ _ ⟨⟨_, _⟩, ⟨_, _⟩⟩ d1 _ rfl d2 _ rfl; unfold BoundingBox2.corner; split
  · exact .error _
  · refine .ok ?_; para
theorem BoundingBox2.rel_beq [Kept ρ] : (B2 ρ ⇒ B2 ρ ⇒ Eq) (fun (a : BoundingBox2 S) (b : BoundingBox2 S) => a == b) (fun (a : BoundingBox2 T) (b : BoundingBox2 T) => a == b) := by
  rintro _ _ ⟨⟨_, _⟩, ⟨_, _⟩⟩ _ _ ⟨⟨_, _⟩, ⟨_, _⟩⟩; para
theorem BoundingBox2.rel_union [KeptMin ρ] : (B2 ρ ⇒ B2 ρ ⇒ B2 ρ) (fun (a : BoundingBox2 S) (b : BoundingBox2 S) => Api.union a b) (fun (a : BoundingBox2 T) (b : BoundingBox2 T) => Api.union a b) := by
  rintro _ _ ⟨⟨_, _⟩, ⟨_, _⟩⟩ _ _ ⟨⟨_, _⟩, ⟨_, _⟩⟩; para
theorem BoundingBox2.rel_unionPoint [KeptMin ρ] : (B2 ρ ⇒ P2 ρ ⇒ B2 ρ) (fun (a : BoundingBox2 S) (p : Point2 S) => Api.union a p) (fun (a : BoundingBox2 T) (p : Point2 T) => Api.union a p) := by
  rintro _ _ ⟨⟨_, _⟩, ⟨_, _⟩⟩ _ _ ⟨_, _⟩; para
theorem BoundingBox2.rel_intersect [Kept ρ] [KeptMin ρ] : (B2 ρ ⇒ B2 ρ ⇒ Option.Rel (B2 ρ)) (fun (a : BoundingBox2 S) (b : BoundingBox2 S) => Api.intersect a b) (fun (a : BoundingBox2 T) (b : BoundingBox2 T) => Api.intersect a b) := by
  rintro _ _ ⟨⟨_, _⟩, ⟨_, _⟩⟩ _ _ ⟨⟨_, _⟩, ⟨_, _⟩⟩; exact ite_rel (by para) (.some (by para)) .none
theorem BoundingBox2.rel_intersectRay' {σ : S → T → Prop} [Kept ρ] [KeptDiv ρ] [Kept σ] [KeptMin σ] (hs : ∀ a b, ρ a b → σ a b) :
    (B2 ρ ⇒ R2 ρ ⇒ Option.Rel (Rg σ)) (fun (a : BoundingBox2 S) (r : Ray2 S) => Api.intersect a r) (fun (a : BoundingBox2 T) (r : Ray2 T) => Api.intersect a r) := by
  rintro _ _ ⟨⟨lx, ly⟩, ⟨tx, ty⟩⟩ _ _ ⟨⟨ox, oy⟩, ⟨dx, dy⟩⟩
  have x1 := hs _ _ (KeptDiv.div (Kept.sub lx ox) dx)
  have x2 := hs _ _ (KeptDiv.div (Kept.sub tx ox) dx)
  have y1 := hs _ _ (KeptDiv.div (Kept.sub ly oy) dy)
  have y2 := hs _ _ (KeptDiv.div (Kept.sub ty oy) dy)
  exact ite_rel (by para) .none (ite_rel (by para) (.some (by para)) .none)
theorem BoundingBox2.rel_intersectRay [Kept ρ] [KeptMin ρ] [KeptDiv ρ] :
    (B2 ρ ⇒ R2 ρ ⇒ Option.Rel (Rg ρ)) (fun (a : BoundingBox2 S) (r : Ray2 S) => Api.intersect a r) (fun (a : BoundingBox2 T) (r : Ray2 T) => Api.intersect a r) := rel_intersectRay' fun _ _ h => h
theorem Matrix3x3.rel_identity [Kept ρ] : M3 ρ Matrix3x3.identity Matrix3x3.identity := by
  refine M3.mk ?_ ?_ ?_ ?_ ?_ ?_ ?_ ?_ ?_ <;> para
theorem Matrix3x3.rel_translate [Kept ρ] : (V2 ρ ⇒ M3 ρ) Matrix3x3.translate Matrix3x3.translate := by
  rintro _ _ ⟨_, _⟩; refine M3.mk ?_ ?_ ?_ ?_ ?_ ?_ ?_ ?_ ?_ <;> para
theorem Matrix3x3.rel_rotate [Kept ρ] [KeptTrig ρ] : (ρ ⇒ M3 ρ) Matrix3x3.rotate Matrix3x3.rotate := by
  rintro _ _ _; refine M3.mk ?_ ?_ ?_ ?_ ?_ ?_ ?_ ?_ ?_ <;> para
theorem Matrix3x3.rel_scale [Kept ρ] : (ρ ⇒ ρ ⇒ M3 ρ) Matrix3x3.scale Matrix3x3.scale := by
  rintro _ _ _ _ _ _; refine M3.mk ?_ ?_ ?_ ?_ ?_ ?_ ?_ ?_ ?_ <;> para
theorem Matrix3x3.rel_scaleUniform [Kept ρ] : (ρ ⇒ M3 ρ) Matrix3x3.scaleUniform Matrix3x3.scaleUniform := by
  rintro _ _ _; refine M3.mk ?_ ?_ ?_ ?_ ?_ ?_ ?_ ?_ ?_ <;> para
theorem Matrix3x3.rel_get  : (M3 ρ ⇒ Eq ⇒ Eq ⇒ Eq ⇒ Outcome ρ) Matrix3x3.get Matrix3x3.get := by
  rintro _ _ h0 d1 _ rfl d2 _ rfl d3 _ rfl; unfold Matrix3x3.get
  rcases Matrix3x3.linearIndex d1 d2 d3 with e | k
  · exact .error _
  · show Outcome _ (dite _ _ _) (dite _ _ _)
    by_cases hk : k < 9
    · rw [dif_pos hk, dif_pos hk]; exact .ok (h0 k hk)
    · rw [dif_neg hk, dif_neg hk]; exact .error _
theorem Matrix3x3.rel_set  : (M3 ρ ⇒ Eq ⇒ Eq ⇒ Eq ⇒ ρ ⇒ Outcome (M3 ρ)) Matrix3x3.set Matrix3x3.set := by
  rintro _ _ h0 d1 _ rfl d2 _ rfl d3 _ rfl _ _ _; unfold Matrix3x3.set
  rcases Matrix3x3.linearIndex d1 d2 d3 with e | k
  · exact .error _
  · show Outcome _ (dite _ _ _) (dite _ _ _)
    by_cases hk : k < 9
    · rw [dif_pos hk, dif_pos hk]; exact .ok (by
        intro j hj
        show ρ (Vector.set _ k _ hk)[j] (Vector.set _ k _ hk)[j]
        rw [Vector.getElem_set, Vector.getElem_set]
        by_cases e : k = j
        · rw [if_pos e, if_pos e]; assumption
        · rw [if_neg e, if_neg e]; exact h0 j hj)
    · rw [dif_neg hk, dif_neg hk]; exact .error _
theorem Matrix3x3.rel_getMut  : (M3 ρ ⇒ Eq ⇒ Eq ⇒ Eq ⇒ (ρ ⇒ ρ) ⇒ Outcome (M3 ρ)) Matrix3x3.getMut Matrix3x3.getMut := by
  rintro _ _ h0 d1 _ rfl d2 _ rfl d3 _ rfl _ _ hf; unfold Matrix3x3.getMut
  rcases Matrix3x3.linearIndex d1 d2 d3 with e | k
  · exact .error _
  · show Outcome _ (dite _ _ _) (dite _ _ _)
    by_cases hk : k < 9
    · rw [dif_pos hk, dif_pos hk]; exact .ok (by
        intro j hj
        show ρ (Vector.set _ k _ hk)[j] (Vector.set _ k _ hk)[j]
        rw [Vector.getElem_set, Vector.getElem_set]
        by_cases e : k = j
        · rw [if_pos e, if_pos e]; exact hf (h0 k hk)
        · rw [if_neg e, if_neg e]; exact h0 j hj)
    · rw [dif_neg hk, dif_neg hk]; exact .error _
theorem Matrix3x3.rel_transpose  : (M3 ρ ⇒ M3 ρ) Matrix3x3.transpose Matrix3x3.transpose := by
  rintro _ _ h0; refine M3.mk ?_ ?_ ?_ ?_ ?_ ?_ ?_ ?_ ?_ <;> exact h0 _ _
theorem Matrix3x3.rel_mul_scalar [Kept ρ] : (M3 ρ ⇒ ρ ⇒ M3 ρ) (fun (a : Matrix3x3 S) (s : S) => a * s) (fun (a : Matrix3x3 T) (s : T) => a * s) := by
  rintro _ _ h0 _ _ _; intro k hk
  show ρ (Vector.ofFn _)[k] (Vector.ofFn _)[k]
  rw [Vector.getElem_ofFn, Vector.getElem_ofFn]
  exact Kept.mul (h0 _ _) ‹_›
theorem Matrix3x3.rel_scalar_mul [Kept ρ] : (ρ ⇒ M3 ρ ⇒ M3 ρ) (fun (s : S) (a : Matrix3x3 S) => s * a) (fun (s : T) (a : Matrix3x3 T) => s * a) := by
  rintro _ _ _ _ _ h1; intro k hk
  show ρ (Vector.ofFn _)[k] (Vector.ofFn _)[k]
  rw [Vector.getElem_ofFn, Vector.getElem_ofFn]
  exact Kept.mul (h1 _ _) ‹_›
theorem Matrix3x3.rel_div_scalar [KeptDiv ρ] : (M3 ρ ⇒ ρ ⇒ M3 ρ) (fun (a : Matrix3x3 S) (s : S) => a / s) (fun (a : Matrix3x3 T) (s : T) => a / s) := by
  rintro _ _ h0 _ _ _; intro k hk
  show ρ (Vector.ofFn _)[k] (Vector.ofFn _)[k]
  rw [Vector.getElem_ofFn, Vector.getElem_ofFn]
  exact KeptDiv.div (h0 _ _) ‹_›
theorem Matrix3x3.rel_mulAssign [Kept ρ] : (M3 ρ ⇒ ρ ⇒ M3 ρ) Matrix3x3.mulAssign Matrix3x3.mulAssign := by
  rintro _ _ h0 _ _ _; intro k hk
  show ρ (Vector.map _ _)[k] (Vector.map _ _)[k]
  rw [Vector.getElem_map, Vector.getElem_map]
  exact Kept.mul (h0 _ _) ‹_›
theorem Matrix3x3.rel_divAssign [KeptDiv ρ] : (M3 ρ ⇒ ρ ⇒ M3 ρ) Matrix3x3.divAssign Matrix3x3.divAssign := by
  rintro _ _ h0 _ _ _; intro k hk
  show ρ (Vector.map _ _)[k] (Vector.map _ _)[k]
  rw [Vector.getElem_map, Vector.getElem_map]
  exact KeptDiv.div (h0 _ _) ‹_›
theorem Matrix3x3.rel_mul_point [Kept ρ] [KeptDiv ρ] : (M3 ρ ⇒ P2 ρ ⇒ P2 ρ) (fun (a : Matrix3x3 S) (p : Point2 S) => a * p) (fun (a : Matrix3x3 T) (p : Point2 T) => a * p) := by
  rintro _ _ h0 _ _ ⟨_, _⟩; param h0 h0
theorem Matrix3x3.rel_point_mul [Kept ρ] [KeptDiv ρ] : (P2 ρ ⇒ M3 ρ ⇒ P2 ρ) (fun (p : Point2 S) (a : Matrix3x3 S) => p * a) (fun (p : Point2 T) (a : Matrix3x3 T) => p * a) := by
  rintro _ _ ⟨_, _⟩ _ _ h1; param h1 h1
theorem Matrix3x3.rel_mul_vector [Kept ρ] : (M3 ρ ⇒ V2 ρ ⇒ V2 ρ) (fun (a : Matrix3x3 S) (v : Vector2 S) => a * v) (fun (a : Matrix3x3 T) (v : Vector2 T) => a * v) := by
  rintro _ _ h0 _ _ ⟨_, _⟩; param h0 h0
theorem Matrix3x3.rel_vector_mul [Kept ρ] : (V2 ρ ⇒ M3 ρ ⇒ V2 ρ) (fun (v : Vector2 S) (a : Matrix3x3 S) => v * a) (fun (v : Vector2 T) (a : Matrix3x3 T) => v * a) := by
  rintro _ _ ⟨_, _⟩ _ _ h1; param h1 h1
theorem Matrix3x3.rel_mul [Kept ρ] : (M3 ρ ⇒ M3 ρ ⇒ M3 ρ) (fun (a : Matrix3x3 S) (b : Matrix3x3 S) => a * b) (fun (a : Matrix3x3 T) (b : Matrix3x3 T) => a * b) := by
  rintro _ _ h0 _ _ h1; refine M3.mk ?_ ?_ ?_ ?_ ?_ ?_ ?_ ?_ ?_ <;> param h0 h1
theorem Matrix3x3.rel_beq [Kept ρ] : (M3 ρ ⇒ M3 ρ ⇒ Eq) (fun (a : Matrix3x3 S) (b : Matrix3x3 S) => a == b) (fun (a : Matrix3x3 T) (b : Matrix3x3 T) => a == b) := by
  rintro _ _ h0 _ _ h1; param h0 h1
theorem Matrix3x3.rel_inverse [Kept ρ] [KeptDiv ρ] : (M3 ρ ⇒ Outcome (M3 ρ)) Matrix3x3.inverse Matrix3x3.inverse := by
  rintro a b h0; have hd : ρ a.det b.det := by param h0 h0
  show Outcome _ (if !(_ == _) then _ else _) (if !(_ == _) then _ else _)
  exact ite_rel (not_rel (Kept.beq (ρ := ρ) hd Kept.zero)) (.ok (by refine M3.mk ?_ ?_ ?_ ?_ ?_ ?_ ?_ ?_ ?_ <;> param h0 h0)) (.error _)
theorem Transform2.rel_new  : (M3 ρ ⇒ M3 ρ ⇒ T2 ρ) Transform2.new Transform2.new := by
  rintro _ _ h0 _ _ h1; exact ⟨h0, h1⟩
theorem Transform2.rel_identity [Kept ρ] : T2 ρ Transform2.identity Transform2.identity := by
  exact ⟨Matrix3x3.rel_identity, Matrix3x3.rel_identity⟩
theorem Transform2.rel_translate [Kept ρ] : (V2 ρ ⇒ T2 ρ) Transform2.translate Transform2.translate := by
  rintro _ _ hv; exact ⟨Matrix3x3.rel_translate hv, Matrix3x3.rel_translate (Vector2.rel_neg hv)⟩
theorem Transform2.rel_rotate [Kept ρ] [KeptTrig ρ] : (ρ ⇒ T2 ρ) Transform2.rotate Transform2.rotate := by
  rintro _ _ _; exact ⟨Matrix3x3.rel_rotate ‹_›, Matrix3x3.rel_transpose (Matrix3x3.rel_rotate ‹_›)⟩
theorem Transform2.rel_scale [Kept ρ] [KeptDiv ρ] : (ρ ⇒ ρ ⇒ T2 ρ) Transform2.scale Transform2.scale := by
  rintro _ _ s0 _ _ s1; exact ⟨Matrix3x3.rel_scale s0 s1, Matrix3x3.rel_scale (KeptDiv.div Kept.one s0) (KeptDiv.div Kept.one s1)⟩
theorem Transform2.rel_scaleUniform [Kept ρ] [KeptDiv ρ] : (ρ ⇒ T2 ρ) Transform2.scaleUniform Transform2.scaleUniform := by
  rintro _ _ s0; exact ⟨Matrix3x3.rel_scaleUniform s0, Matrix3x3.rel_scaleUniform (KeptDiv.div Kept.one s0)⟩
theorem Transform2.rel_tryFrom [Kept ρ] [KeptDiv ρ] : (M3 ρ ⇒ Outcome (T2 ρ)) Transform2.tryFrom Transform2.tryFrom := by
  intro a b h
  have := Matrix3x3.rel_inverse h
  unfold Transform2.tryFrom
  revert this
  generalize Matrix3x3.inverse a = x
  generalize Matrix3x3.inverse b = y
  rintro (e | h')
  · exact .error _
  · exact .ok ⟨h, h'⟩
theorem Transform2.rel_andThen [Kept ρ] : (T2 ρ ⇒ T2 ρ ⇒ T2 ρ) Transform2.andThen Transform2.andThen := by
  rintro _ _ ⟨f0, i0⟩ _ _ ⟨f1, i1⟩; exact ⟨Matrix3x3.rel_mul f1 f0, Matrix3x3.rel_mul i0 i1⟩
theorem Transform2.rel_inv  : (T2 ρ ⇒ T2 ρ) Transform2.inv Transform2.inv := by
  rintro _ _ ⟨f0, i0⟩; exact ⟨i0, f0⟩
theorem Transform2.rel_beq [Kept ρ] : (T2 ρ ⇒ T2 ρ ⇒ Eq) (fun (a : Transform2 S) (b : Transform2 S) => a == b) (fun (a : Transform2 T) (b : Transform2 T) => a == b) := by
  rintro _ _ ⟨f0, i0⟩ _ _ ⟨f1, i1⟩; exact and_rel (Matrix3x3.rel_beq f0 f1) (Matrix3x3.rel_beq i0 i1)
theorem Transform2.rel_transform_point [Kept ρ] [KeptDiv ρ] : (T2 ρ ⇒ P2 ρ ⇒ P2 ρ) (fun (t : Transform2 S) (a : Point2 S) => Transform.transform t a) (fun (t : Transform2 T) (a : Point2 T) => Transform.transform t a) := by
  rintro _ _ ⟨f0, i0⟩ _ _ ha; exact Matrix3x3.rel_mul_point f0 ha
theorem Transform2.rel_transform_vector [Kept ρ] : (T2 ρ ⇒ V2 ρ ⇒ V2 ρ) (fun (t : Transform2 S) (a : Vector2 S) => Transform.transform t a) (fun (t : Transform2 T) (a : Vector2 T) => Transform.transform t a) := by
  rintro _ _ ⟨f0, i0⟩ _ _ ha; exact Matrix3x3.rel_mul_vector f0 ha
theorem Transform2.rel_transform_ray [Kept ρ] [KeptDiv ρ] : (T2 ρ ⇒ R2 ρ ⇒ R2 ρ) (fun (t : Transform2 S) (a : Ray2 S) => Transform.transform t a) (fun (t : Transform2 T) (a : Ray2 T) => Transform.transform t a) := by
  rintro _ _ ⟨f0, i0⟩ _ _ ha; exact ⟨Matrix3x3.rel_mul_point f0 ha.1, Matrix3x3.rel_mul_vector f0 ha.2⟩
/-- The point the loop body adds (src/transform2.rs:395-398), named for the proof. -/
def Transform2.boxCorner {S : Type} [Scalar S] (o : Point2 S) (d : Vector2 S) (i : Nat) : Point2 S :=
  let corner := o
  let corner := if i &&& 0b01 != 0 then { corner with x := corner.x + d.x } else corner
  if i &&& 0b10 != 0 then { corner with y := corner.y + d.y } else corner
theorem Transform2.rel_boxStep [Kept ρ] [KeptMin ρ] {o : Point2 S} {o' : Point2 T} {d : Vector2 S} {d' : Vector2 T} (ho : P2 ρ o o') (hd : V2 ρ d d')
    {a : Point2 S × Point2 S} {a' : Point2 T × Point2 T} (ha : Both (P2 ρ) (P2 ρ) a a') (i : Nat) :
    Both (P2 ρ) (P2 ρ) (Transform2.boxStep o d a i) (Transform2.boxStep o' d' a' i) := by
  have hc : P2 ρ (Transform2.boxCorner o d i) (Transform2.boxCorner o' d' i) := by
    unfold Transform2.boxCorner
    obtain ⟨_, _⟩ := ho; obtain ⟨_, _⟩ := hd
    by_cases c0 : (i &&& 0b01 != 0) = true <;> by_cases c1 : (i &&& 0b10 != 0) = true <;>
      simp only [c0, c1, if_true, if_false, Bool.false_eq_true] <;> para
  exact ⟨Point2.rel_min ha.1 hc, Point2.rel_max ha.2 hc⟩
theorem Transform2.rel_transform_box' {σ : S → T → Prop} [Kept ρ] [KeptDiv ρ] [Kept σ] [KeptMin σ] (hs : ∀ a b, ρ a b → σ a b) :
    (T2 ρ ⇒ B2 ρ ⇒ B2 σ) (fun (t : Transform2 S) (a : BoundingBox2 S) => Transform.transform t a) (fun (t : Transform2 T) (a : BoundingBox2 T) => Transform.transform t a) := by
  rintro t t' ht b b' hb
  have ho := Transform2.rel_transform_point ht hb.1
  have hd := Transform2.rel_transform_vector ht (BoundingBox2.rel_diagonal hb)
  have ho' : P2 σ (Transform.transform t b.min) (Transform.transform t' b'.min) := ⟨hs _ _ ho.1, hs _ _ ho.2⟩
  have hd' : V2 σ (Transform.transform t b.diagonal) (Transform.transform t' b'.diagonal) := ⟨hs _ _ hd.1, hs _ _ hd.2⟩
  have hl : ∀ (l : List Nat) (a : Point2 S × Point2 S) (a' : Point2 T × Point2 T), Both (P2 σ) (P2 σ) a a' →
      Both (P2 σ) (P2 σ) (l.foldl (Transform2.boxStep (Transform.transform t b.min) (Transform.transform t b.diagonal)) a)
        (l.foldl (Transform2.boxStep (Transform.transform t' b'.min) (Transform.transform t' b'.diagonal)) a') := by
    intro l
    induction l with
    | nil => exact fun _ _ h => h
    | cons i l ih => exact fun a a' h => ih _ _ (Transform2.rel_boxStep ho' hd' h i)
  have := hl [1, 2, 3] (_, _) (_, _) ⟨ho', ho'⟩
  exact BoundingBox2.rel_new this.1 this.2
theorem Transform2.rel_transform_box [Kept ρ] [KeptMin ρ] [KeptDiv ρ] : (T2 ρ ⇒ B2 ρ ⇒ B2 ρ) (fun (t : Transform2 S) (a : BoundingBox2 S) => Transform.transform t a) (fun (t : Transform2 T) (a : BoundingBox2 T) => Transform.transform t a) :=
  rel_transform_box' fun _ _ h => h
end

end VecMath

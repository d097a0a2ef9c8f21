import Verif.Rust.Source
/-! # The syntax trees are what the parser makes of the source text

Generated by `tools/gen/source.py`. The parser is evaluated by the kernel on each of the 22 source files. -/

namespace VecMath.Rust
set_option maxRecDepth 100000

/-- `src/lib.rs` -/
theorem C81_text_lib : parse Src.lib.text = some Src.lib := by kernel_parse
/-- `src/scalar.rs` -/
theorem C81_text_scalar : parse Src.scalar.text = some Src.scalar := by kernel_parse
/-- `src/minmax.rs` -/
theorem C81_text_minmax : parse Src.minmax.text = some Src.minmax := by kernel_parse
/-- `src/dot.rs` -/
theorem C81_text_dot : parse Src.dot.text = some Src.dot := by kernel_parse
/-- `src/cross.rs` -/
theorem C81_text_cross : parse Src.cross.text = some Src.cross := by kernel_parse
/-- `src/length.rs` -/
theorem C81_text_length : parse Src.length.text = some Src.length := by kernel_parse
/-- `src/distance.rs` -/
theorem C81_text_distance : parse Src.distance.text = some Src.distance := by kernel_parse
/-- `src/union.rs` -/
theorem C81_text_union : parse Src.union.text = some Src.union := by kernel_parse
/-- `src/intersection.rs` -/
theorem C81_text_intersection : parse Src.intersection.text = some Src.intersection := by kernel_parse
/-- `src/transform.rs` -/
theorem C81_text_transform : parse Src.transform.text = some Src.transform := by kernel_parse
/-- `src/dimension2.rs` -/
theorem C81_text_dimension2 : parse Src.dimension2.text = some Src.dimension2 := by kernel_parse
/-- `src/dimension3.rs` -/
theorem C81_text_dimension3 : parse Src.dimension3.text = some Src.dimension3 := by kernel_parse
/-- `src/vector2.rs` -/
theorem C81_text_vector2 : parse Src.vector2.text = some Src.vector2 := by kernel_parse
/-- `src/vector3.rs` -/
theorem C81_text_vector3 : parse Src.vector3.text = some Src.vector3 := by kernel_parse
/-- `src/point2.rs` -/
theorem C81_text_point2 : parse Src.point2.text = some Src.point2 := by kernel_parse
/-- `src/point3.rs` -/
theorem C81_text_point3 : parse Src.point3.text = some Src.point3 := by kernel_parse
/-- `src/ray2.rs` -/
theorem C81_text_ray2 : parse Src.ray2.text = some Src.ray2 := by kernel_parse
/-- `src/ray3.rs` -/
theorem C81_text_ray3 : parse Src.ray3.text = some Src.ray3 := by kernel_parse
/-- `src/boundingbox2.rs` -/
theorem C81_text_boundingbox2 : parse Src.boundingbox2.text = some Src.boundingbox2 := by kernel_parse
/-- `src/boundingbox3.rs` -/
theorem C81_text_boundingbox3 : parse Src.boundingbox3.text = some Src.boundingbox3 := by kernel_parse
/-- `src/transform2.rs` -/
theorem C81_text_transform2 : parse Src.transform2.text = some Src.transform2 := by kernel_parse
/-- `src/transform3.rs` -/
theorem C81_text_transform3 : parse Src.transform3.text = some Src.transform3 := by kernel_parse

/-- `Src.crate` is what the 22 files parse to, together. -/
theorem C81_text :
    ([Src.lib.text, Src.scalar.text, Src.minmax.text, Src.dot.text, Src.cross.text, Src.length.text, Src.distance.text, Src.union.text, Src.intersection.text, Src.transform.text, Src.dimension2.text, Src.dimension3.text, Src.vector2.text, Src.vector3.text, Src.point2.text, Src.point3.text, Src.ray2.text, Src.ray3.text, Src.boundingbox2.text, Src.boundingbox3.text, Src.transform2.text, Src.transform3.text].mapM parse).map (List.foldl Crate.append {}) =
      some Src.crate := by
  rw [Src.crate_eq]
  simp only [List.mapM_cons, List.mapM_nil, C81_text_lib, C81_text_scalar, C81_text_minmax, C81_text_dot, C81_text_cross, C81_text_length, C81_text_distance, C81_text_union, C81_text_intersection, C81_text_transform, C81_text_dimension2, C81_text_dimension3, C81_text_vector2, C81_text_vector3, C81_text_point2, C81_text_point3, C81_text_ray2, C81_text_ray3, C81_text_boundingbox2, C81_text_boundingbox3, C81_text_transform2, C81_text_transform3]
  rfl

end VecMath.Rust

{
 "C28": {
  "note": "Expected law (neutral for every box) is false of the code: union(empty, empty) is infinite (C28_empty_empty). C28_neutral characterises exactly the boxes for which it holds, which is the statement as listed."
 },
 "C29": {
  "note": "'No box overlaps empty()' is false of the code exactly for the infinite box (C29_infinite_overlaps_empty)."
 },
 "C30": {
  "note": "intersect(infinite, empty) is Some(infinite): witness C30_infinite_empty; otherwise None."
 },
 "C31": {
  "note": "Finding: area/volume can be NaN on finite boxes (C31_float_area_nan)."
 },
 "C32": {
  "note": "Finding: the centre can be outside the box when an extent overflows; iff proved."
 },
 "C35": {
  "note": "Needs the hypothesis FaceFree; see C37 for what the code does otherwise. Float false hits shown."
 },
 "C37": {
  "note": "Expected property refuted; the exact behaviour of the code is proved."
 },
 "C45": {
  "note": "Finding: float underflow/overflow/NaN misjudge singularity; proved."
 },
 "C54": {
  "note": "Documented behaviour refuted: look_at never returns Err."
 },
 "C56": {
  "note": "Expected property refuted for transforms with a mixed-sign row; iff proved."
 },
 "C77": {
  "also": [
   "VecMath.C68_transform_box_contains2",
   "VecMath.C68_transform_box_contains3"
  ]
 },
 "C76": {
  "also": [
   "VecMath.C62_near3"
  ]
 },
 "C55": {
  "also": [
   "VecMath.C50_real_ray2",
   "VecMath.C50_real_ray3"
  ]
 }
}
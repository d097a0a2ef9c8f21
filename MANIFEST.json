{
 "claims": [
  {
   "property": "C01",
   "status": "proved",
   "theorems": [
    "VecMath.C01_vector2",
    "VecMath.C01_vector3",
    "VecMath.C01_point2",
    "VecMath.C01_point3",
    "VecMath.C01_matrix3x3",
    "VecMath.C01_matrix4x4"
   ],
   "note": ""
  },
  {
   "property": "C02",
   "status": "proved",
   "theorems": [
    "VecMath.C02_vectors_points",
    "VecMath.C02_matrices"
   ],
   "note": ""
  },
  {
   "property": "C03",
   "status": "proved",
   "theorems": [
    "VecMath.C03_vector2_write",
    "VecMath.C03_vector3_write",
    "VecMath.C03_point2_write",
    "VecMath.C03_point3_write",
    "VecMath.C03_reads",
    "VecMath.C03_vector2_history",
    "VecMath.C03_vector3_history",
    "VecMath.C03_point2_history",
    "VecMath.C03_point3_history"
   ],
   "note": ""
  },
  {
   "property": "C04",
   "status": "proved",
   "theorems": [
    "VecMath.C04_length2",
    "VecMath.C04_length3",
    "VecMath.C04_components2",
    "VecMath.C04_components3",
    "VecMath.C04_identity",
    "VecMath.C04_index2",
    "VecMath.C04_index3",
    "VecMath.C04_compose2",
    "VecMath.C04_compose3"
   ],
   "note": ""
  },
  {
   "property": "C05",
   "status": "proved",
   "theorems": [
    "VecMath.C05_origin2",
    "VecMath.C05_origin3",
    "VecMath.C05_roundtrip"
   ],
   "note": ""
  },
  {
   "property": "C06",
   "status": "proved",
   "theorems": [
    "VecMath.C06_float2",
    "VecMath.C06_float3",
    "VecMath.C06_real2",
    "VecMath.C06_real3"
   ],
   "note": ""
  },
  {
   "property": "C07",
   "status": "proved",
   "theorems": [
    "VecMath.C07_float2",
    "VecMath.C07_float3",
    "VecMath.C07_real2",
    "VecMath.C07_real3"
   ],
   "note": ""
  },
  {
   "property": "C08",
   "status": "proved",
   "theorems": [
    "VecMath.C08_float_vector2",
    "VecMath.C08_float_vector3",
    "VecMath.C08_float_point2",
    "VecMath.C08_float_point3",
    "VecMath.C08_real2",
    "VecMath.C08_real3"
   ],
   "note": ""
  },
  {
   "property": "C09",
   "status": "proved",
   "theorems": [
    "VecMath.C09_symmetric2",
    "VecMath.C09_symmetric3",
    "VecMath.C09_diagonal2",
    "VecMath.C09_diagonal3"
   ],
   "note": ""
  },
  {
   "property": "C10",
   "status": "proved",
   "theorems": [
    "VecMath.C10_sum2",
    "VecMath.C10_bilinear2",
    "VecMath.C10_definite2",
    "VecMath.C10_sum3",
    "VecMath.C10_bilinear3",
    "VecMath.C10_definite3"
   ],
   "note": ""
  },
  {
   "property": "C11",
   "status": "proved",
   "theorems": [
    "VecMath.C11_float_antisymmetric",
    "VecMath.C11_real",
    "VecMath.C11_real_dependent",
    "VecMath.C11_axes"
   ],
   "note": ""
  },
  {
   "property": "C12",
   "status": "proved",
   "theorems": [
    "VecMath.C12_float2",
    "VecMath.C12_float3",
    "VecMath.C12_float_signs2",
    "VecMath.C12_float_signs3",
    "VecMath.C12_float_neg_abs2",
    "VecMath.C12_float_neg_abs3",
    "VecMath.C12_float_zero_iff2",
    "VecMath.C12_float_zero_iff3",
    "VecMath.C12_real_norm2",
    "VecMath.C12_real2",
    "VecMath.C12_real_norm3",
    "VecMath.C12_real3"
   ],
   "note": ""
  },
  {
   "property": "C13",
   "status": "proved",
   "theorems": [
    "VecMath.C13_float_tiny2",
    "VecMath.C13_float_tiny3",
    "VecMath.C13_float_huge2",
    "VecMath.C13_float_huge3",
    "VecMath.C13_zero2",
    "VecMath.C13_zero3",
    "VecMath.C13_real2",
    "VecMath.C13_real3"
   ],
   "note": ""
  },
  {
   "property": "C14",
   "status": "proved",
   "theorems": [
    "VecMath.C14_float2",
    "VecMath.C14_float3",
    "VecMath.C14_real2",
    "VecMath.C14_real3"
   ],
   "note": ""
  },
  {
   "property": "C15",
   "status": "proved",
   "theorems": [
    "VecMath.C15_float_tiny2",
    "VecMath.C15_float_tiny3",
    "VecMath.C15_float_symmetric2",
    "VecMath.C15_float_symmetric3",
    "VecMath.C15_float2",
    "VecMath.C15_float3",
    "VecMath.C15_float_zero2",
    "VecMath.C15_float_zero3",
    "VecMath.C15_float_not_separating2",
    "VecMath.C15_float_not_separating3",
    "VecMath.C15_float_zero_iff2",
    "VecMath.C15_float_zero_iff3",
    "VecMath.C15_real2",
    "VecMath.C15_real3"
   ],
   "note": ""
  },
  {
   "property": "C16",
   "status": "proved",
   "theorems": [
    "VecMath.C16_float2",
    "VecMath.C16_float3",
    "VecMath.C16_real2",
    "VecMath.C16_real3"
   ],
   "note": ""
  },
  {
   "property": "C17",
   "status": "proved",
   "theorems": [
    "VecMath.C17_vector2",
    "VecMath.C17_vector3",
    "VecMath.C17_point2",
    "VecMath.C17_point3",
    "VecMath.C17_closest_selects",
    "VecMath.C17_closest_selects2",
    "VecMath.C17_shortest_selects",
    "VecMath.C17_shortest_selects2"
   ],
   "note": ""
  },
  {
   "property": "C18",
   "status": "proved",
   "theorems": [
    "VecMath.C18_scalar",
    "VecMath.C18_vector2",
    "VecMath.C18_vector3",
    "VecMath.C18_point2",
    "VecMath.C18_point3"
   ],
   "note": ""
  },
  {
   "property": "C19",
   "status": "proved",
   "theorems": [
    "VecMath.C19_vector2",
    "VecMath.C19_vector3",
    "VecMath.C19_point2",
    "VecMath.C19_point3"
   ],
   "note": ""
  },
  {
   "property": "C20",
   "status": "proved",
   "theorems": [
    "VecMath.C20_vector2",
    "VecMath.C20_vector3",
    "VecMath.C20_point2",
    "VecMath.C20_point3"
   ],
   "note": ""
  },
  {
   "property": "C21",
   "status": "proved",
   "theorems": [
    "VecMath.C21_vector2",
    "VecMath.C21_vector3",
    "VecMath.C21_point2",
    "VecMath.C21_point3",
    "VecMath.C21_boundingBox2",
    "VecMath.C21_boundingBox3"
   ],
   "note": ""
  },
  {
   "property": "C22",
   "status": "proved",
   "theorems": [
    "VecMath.C22_length",
    "VecMath.C22_distance_symmetric",
    "VecMath.C22_distance_zero",
    "VecMath.C22_relative_length",
    "VecMath.C22_relative_distance"
   ],
   "note": ""
  },
  {
   "property": "C23",
   "status": "proved",
   "theorems": [
    "VecMath.C23_float_start2",
    "VecMath.C23_float_start3",
    "VecMath.C23_real2",
    "VecMath.C23_real3"
   ],
   "note": ""
  },
  {
   "property": "C24",
   "status": "proved",
   "theorems": [
    "VecMath.C24_new2",
    "VecMath.C24_new_nan2",
    "VecMath.C24_new3",
    "VecMath.C24_new_nan3"
   ],
   "note": ""
  },
  {
   "property": "C25",
   "status": "proved",
   "theorems": [
    "VecMath.C25_inside2",
    "VecMath.C25_inside3"
   ],
   "note": ""
  },
  {
   "property": "C26",
   "status": "proved",
   "theorems": [
    "VecMath.C26_union2",
    "VecMath.C26_laws2",
    "VecMath.C26_union3",
    "VecMath.C26_laws3"
   ],
   "note": ""
  },
  {
   "property": "C27",
   "status": "proved",
   "theorems": [
    "VecMath.C27_step2",
    "VecMath.C27_points2",
    "VecMath.C27_order2",
    "VecMath.C27_step3",
    "VecMath.C27_points3",
    "VecMath.C27_order3"
   ],
   "note": ""
  },
  {
   "property": "C28",
   "status": "proved",
   "theorems": [
    "VecMath.C28_neutral2",
    "VecMath.C28_empty_empty2",
    "VecMath.C28_neutral3",
    "VecMath.C28_empty_empty3"
   ],
   "note": "Expected law (neutral for every box) is false of the code: union(empty, empty) is infinite (C28_empty_empty). C28_neutral characterises exactly the boxes for which it holds, which is the statement as listed."
  },
  {
   "property": "C29",
   "status": "proved",
   "theorems": [
    "VecMath.C29_symmetric2",
    "VecMath.C29_common_point2",
    "VecMath.C29_empty2",
    "VecMath.C29_infinite_overlaps_empty2",
    "VecMath.C29_symmetric3",
    "VecMath.C29_common_point3",
    "VecMath.C29_empty3",
    "VecMath.C29_infinite_overlaps_empty3"
   ],
   "note": "'No box overlaps empty()' is false of the code exactly for the infinite box (C29_infinite_overlaps_empty)."
  },
  {
   "property": "C30",
   "status": "proved",
   "theorems": [
    "VecMath.C30_intersect2",
    "VecMath.C30_empty2",
    "VecMath.C30_infinite_empty2",
    "VecMath.C30_intersect3",
    "VecMath.C30_empty3",
    "VecMath.C30_infinite_empty3"
   ],
   "note": "intersect(infinite, empty) is Some(infinite): witness C30_infinite_empty; otherwise None."
  },
  {
   "property": "C31",
   "status": "proved",
   "theorems": [
    "VecMath.C31_extents2",
    "VecMath.C31_float_nonneg2",
    "VecMath.C31_float_area",
    "VecMath.C31_extents3",
    "VecMath.C31_float_nonneg3",
    "VecMath.C31_float_measures",
    "VecMath.C31_float_measures_all",
    "VecMath.C31_float_area_nan",
    "VecMath.C31_float_volume_nan",
    "VecMath.C31_real2",
    "VecMath.C31_real_monotone2",
    "VecMath.C31_real3",
    "VecMath.C31_real_monotone3"
   ],
   "note": "Finding: area/volume can be NaN on finite boxes (C31_float_area_nan)."
  },
  {
   "property": "C32",
   "status": "proved",
   "theorems": [
    "VecMath.C32_float2",
    "VecMath.C32_float3",
    "VecMath.C32_float_iff2",
    "VecMath.C32_float_iff3",
    "VecMath.C32_float_center_outside2",
    "VecMath.C32_float_center_outside3",
    "VecMath.C32_real2",
    "VecMath.C32_real3"
   ],
   "note": "Finding: the centre can be outside the box when an extent overflows; iff proved."
  },
  {
   "property": "C33",
   "status": "proved",
   "theorems": [
    "VecMath.C33_corner2",
    "VecMath.C33_enumerates2",
    "VecMath.C33_inside2",
    "VecMath.C33_contains2",
    "VecMath.C33_corner3",
    "VecMath.C33_enumerates3",
    "VecMath.C33_inside3",
    "VecMath.C33_contains3"
   ],
   "note": ""
  },
  {
   "property": "C34",
   "status": "proved",
   "theorems": [
    "VecMath.C34_range2",
    "VecMath.C34_range3"
   ],
   "note": ""
  },
  {
   "property": "C35",
   "status": "proved",
   "theorems": [
    "VecMath.C35_float_false_hit2",
    "VecMath.C35_float_false_hit3",
    "VecMath.C35_real2",
    "VecMath.C35_real3"
   ],
   "note": "Needs the hypothesis FaceFree; see C37 for what the code does otherwise. Float false hits shown."
  },
  {
   "property": "C36",
   "status": "proved",
   "theorems": [
    "VecMath.C36_inside2",
    "VecMath.C36_inside3"
   ],
   "note": ""
  },
  {
   "property": "C37",
   "status": "proved",
   "theorems": [
    "VecMath.C37_face_plane_missed2",
    "VecMath.C37_face_plane_missed3",
    "VecMath.C37_float2",
    "VecMath.C37_float3",
    "VecMath.C37_real2",
    "VecMath.C37_real3"
   ],
   "note": "Expected property refuted; the exact behaviour of the code is proved."
  },
  {
   "property": "C38",
   "status": "proved",
   "theorems": [
    "VecMath.C38_matrix3x3_history",
    "VecMath.C38_matrix3x3_new",
    "VecMath.C38_matrix4x4_history",
    "VecMath.C38_matrix4x4_new"
   ],
   "note": ""
  },
  {
   "property": "C39",
   "status": "proved",
   "theorems": [
    "VecMath.C39_matrix3x3_debug",
    "VecMath.C39_matrix3x3_release",
    "VecMath.C39_matrix3x3_alias",
    "VecMath.C39_matrix4x4_debug",
    "VecMath.C39_matrix4x4_release",
    "VecMath.C39_matrix4x4_alias",
    "VecMath.C39_matrix3x3_release_mut",
    "VecMath.C39_matrix3x3_alias_mut",
    "VecMath.C39_matrix4x4_release_mut",
    "VecMath.C39_matrix4x4_alias_mut"
   ],
   "note": ""
  },
  {
   "property": "C40",
   "status": "proved",
   "theorems": [
    "VecMath.C40_float_product2",
    "VecMath.C40_float_product3",
    "VecMath.C40_matrix3x3_get",
    "VecMath.C40_matrix3x3_involution",
    "VecMath.C40_matrix4x4_get",
    "VecMath.C40_matrix4x4_involution"
   ],
   "note": ""
  },
  {
   "property": "C41",
   "status": "proved",
   "theorems": [
    "VecMath.C41_float_identity2",
    "VecMath.C41_float_identity3",
    "VecMath.C41_real2",
    "VecMath.C41_real_inverse2",
    "VecMath.C41_real3",
    "VecMath.C41_real_inverse3"
   ],
   "note": ""
  },
  {
   "property": "C42",
   "status": "proved",
   "theorems": [
    "VecMath.C42_matrix3x3",
    "VecMath.C42_matrix4x4",
    "VecMath.C42_real2",
    "VecMath.C42_real3"
   ],
   "note": ""
  },
  {
   "property": "C43",
   "status": "proved",
   "theorems": [
    "VecMath.C43_float_row2",
    "VecMath.C43_float_row3",
    "VecMath.C43_real_point2",
    "VecMath.C43_real_vector2",
    "VecMath.C43_real_compose2",
    "VecMath.C43_real_affine2",
    "VecMath.C43_real_point3",
    "VecMath.C43_real_vector3",
    "VecMath.C43_real_compose3",
    "VecMath.C43_real_affine3"
   ],
   "note": ""
  },
  {
   "property": "C44",
   "status": "proved",
   "theorems": [
    "VecMath.C44_real2",
    "VecMath.C44_unique2",
    "VecMath.C44_real3",
    "VecMath.C44_unique3"
   ],
   "note": ""
  },
  {
   "property": "C45",
   "status": "proved",
   "theorems": [
    "VecMath.C45_float_tiny2",
    "VecMath.C45_float_huge2",
    "VecMath.C45_float_tiny3",
    "VecMath.C45_float_huge3",
    "VecMath.C45_nan_accepted",
    "VecMath.C45_nan_accepted2",
    "VecMath.C45_float_rejected3",
    "VecMath.C45_float_rejected2",
    "VecMath.C45_real2",
    "VecMath.C45_real3"
   ],
   "note": "Finding: float underflow/overflow/NaN misjudge singularity; proved."
  },
  {
   "property": "C46",
   "status": "proved",
   "theorems": [
    "VecMath.C46_float_translate2",
    "VecMath.C46_float_scale2",
    "VecMath.C46_scale_uniform2",
    "VecMath.C46_float_identity2",
    "VecMath.C46_float_translate3",
    "VecMath.C46_float_scale3",
    "VecMath.C46_scale_uniform3",
    "VecMath.C46_float_identity3"
   ],
   "note": ""
  },
  {
   "property": "C47",
   "status": "proved",
   "theorems": [
    "VecMath.C47_real_formula2",
    "VecMath.C47_real_rigid2",
    "VecMath.C47_real_angles2",
    "VecMath.C47_real_quarter2",
    "VecMath.C47_real_formula_x",
    "VecMath.C47_real_rigid_x",
    "VecMath.C47_real_angles_x",
    "VecMath.C47_real_axis_x",
    "VecMath.C47_real_quarter_x",
    "VecMath.C47_real_formula_y",
    "VecMath.C47_real_rigid_y",
    "VecMath.C47_real_angles_y",
    "VecMath.C47_real_axis_y",
    "VecMath.C47_real_quarter_y",
    "VecMath.C47_real_formula_z",
    "VecMath.C47_real_rigid_z",
    "VecMath.C47_real_angles_z",
    "VecMath.C47_real_axis_z",
    "VecMath.C47_real_quarter_z"
   ],
   "note": ""
  },
  {
   "property": "C48",
   "status": "proved",
   "theorems": [
    "VecMath.C48_zero_axis",
    "VecMath.C48_real_rodrigues",
    "VecMath.C48_real_rigid",
    "VecMath.C48_real_fixes_axis",
    "VecMath.C48_real_angles",
    "VecMath.C48_real_direction",
    "VecMath.C48_real_coordinate_axes"
   ],
   "note": ""
  },
  {
   "property": "C49",
   "status": "proved",
   "theorems": [
    "VecMath.C49_float_translate2",
    "VecMath.C49_float_scale_zero2",
    "VecMath.C49_float_translate3",
    "VecMath.C49_float_scale_zero3",
    "VecMath.C49_real2",
    "VecMath.C49_real_rotate2",
    "VecMath.C49_real3",
    "VecMath.C49_real_rotatex",
    "VecMath.C49_real_rotatey",
    "VecMath.C49_real_rotatez",
    "VecMath.C49_real_rotate_axis",
    "VecMath.C49_real_look_at"
   ],
   "note": ""
  },
  {
   "property": "C50",
   "status": "proved",
   "theorems": [
    "VecMath.C50_real_point2",
    "VecMath.C50_real_vector2",
    "VecMath.C50_real_ray2",
    "VecMath.C50_real_monoid2",
    "VecMath.C50_real_chain2",
    "VecMath.C50_real_point3",
    "VecMath.C50_real_vector3",
    "VecMath.C50_real_ray3",
    "VecMath.C50_real_monoid3",
    "VecMath.C50_real_chain3"
   ],
   "note": ""
  },
  {
   "property": "C51",
   "status": "proved",
   "theorems": [
    "VecMath.C51_real2",
    "VecMath.C51_real3",
    "VecMath.C51_real_ray2",
    "VecMath.C51_real_ray3",
    "VecMath.C51_structural2",
    "VecMath.C51_structural3",
    "VecMath.C51_fields"
   ],
   "note": ""
  },
  {
   "property": "C52",
   "status": "proved",
   "theorems": [
    "VecMath.C52_paired2",
    "VecMath.C52_affine2",
    "VecMath.C52_rigid2",
    "VecMath.C52_paired3",
    "VecMath.C52_affine3",
    "VecMath.C52_rigid3"
   ],
   "note": ""
  },
  {
   "property": "C53",
   "status": "proved",
   "theorems": [
    "VecMath.C53_real"
   ],
   "note": ""
  },
  {
   "property": "C54",
   "status": "proved",
   "theorems": [
    "VecMath.C54_from_eq_target",
    "VecMath.C54_zero_up",
    "VecMath.C54_real",
    "VecMath.C54_never_err"
   ],
   "note": "Documented behaviour refuted: look_at never returns Err."
  },
  {
   "property": "C55",
   "status": "proved",
   "theorems": [
    "VecMath.C55_real2",
    "VecMath.C55_real_inverse2",
    "VecMath.C55_real3",
    "VecMath.C55_real_inverse3",
    "VecMath.C50_real_ray2",
    "VecMath.C50_real_ray3"
   ],
   "note": ""
  },
  {
   "property": "C56",
   "status": "proved",
   "theorems": [
    "VecMath.C56_float_span2",
    "VecMath.C56_float_min_corner2",
    "VecMath.C56_float_identity_loses2",
    "VecMath.C56_float_span3",
    "VecMath.C56_float_min_corner3",
    "VecMath.C56_float_identity_loses3",
    "VecMath.C56_real_span2",
    "VecMath.C56_monotone2",
    "VecMath.C56_real_iff2",
    "VecMath.C56_real_translate_scale2",
    "VecMath.C56_real_span3",
    "VecMath.C56_monotone3",
    "VecMath.C56_real_iff3",
    "VecMath.C56_real_translate_scale3",
    "VecMath.C56_real_rotate",
    "VecMath.C56_real_rotate_z",
    "VecMath.C56_real_rotate3x",
    "VecMath.C56_real_rotate3y",
    "VecMath.C56_real_rotate3z"
   ],
   "note": "Expected property refuted for transforms with a mixed-sign row; iff proved."
  },
  {
   "property": "C57",
   "status": "proved",
   "theorems": [
    "VecMath.C57_real2",
    "VecMath.C57_real3",
    "VecMath.C57_tryFrom2",
    "VecMath.C57_tryFrom3",
    "VecMath.C57_tryFrom_err"
   ],
   "note": ""
  },
  {
   "property": "C58",
   "status": "proved",
   "theorems": [
    "VecMath.C58_vector2",
    "VecMath.C58_vector3",
    "VecMath.C58_point2",
    "VecMath.C58_point3",
    "VecMath.C58_ray2",
    "VecMath.C58_ray3",
    "VecMath.C58_boundingBox2",
    "VecMath.C58_boundingBox3",
    "VecMath.C58_matrix3x3",
    "VecMath.C58_matrix4x4",
    "VecMath.C58_transform2",
    "VecMath.C58_transform3",
    "VecMath.C58_zeros",
    "VecMath.C58_congruence2",
    "VecMath.C58_congruence3",
    "VecMath.C58_division_distinguishes_zeros"
   ],
   "note": ""
  },
  {
   "property": "C59",
   "status": "proved",
   "theorems": [
    "VecMath.C59_dot2",
    "VecMath.C59_dot3",
    "VecMath.C59_dot_normal2",
    "VecMath.C59_dot_normal3",
    "VecMath.C59_length_sq2",
    "VecMath.C59_length_sq3",
    "VecMath.C59_length2",
    "VecMath.C59_length3"
   ],
   "note": ""
  },
  {
   "property": "C60",
   "status": "proved",
   "theorems": [
    "VecMath.C60_vector2",
    "VecMath.C60_vector3",
    "VecMath.C60_point2",
    "VecMath.C60_point3",
    "VecMath.C60_distance2",
    "VecMath.C60_distance3"
   ],
   "note": ""
  },
  {
   "property": "C61",
   "status": "proved",
   "theorems": [
    "VecMath.C61_cross3"
   ],
   "note": ""
  },
  {
   "property": "C62",
   "status": "proved",
   "theorems": [
    "VecMath.C62_normalize2",
    "VecMath.C62_normalize3",
    "VecMath.C62_near3",
    "VecMath.C62_near2"
   ],
   "note": ""
  },
  {
   "property": "C63",
   "status": "proved",
   "theorems": [
    "VecMath.C63_product3x3",
    "VecMath.C63_product4x4",
    "VecMath.C63_vector2",
    "VecMath.C63_vector3",
    "VecMath.C63_point2",
    "VecMath.C63_point3"
   ],
   "note": ""
  },
  {
   "property": "C64",
   "status": "proved",
   "theorems": [
    "VecMath.C64_at2",
    "VecMath.C64_at3"
   ],
   "note": ""
  },
  {
   "property": "C65",
   "status": "proved",
   "theorems": [
    "VecMath.C65_float_sound2",
    "VecMath.C65_float_complete2",
    "VecMath.C65_float_sound3",
    "VecMath.C65_float_complete3"
   ],
   "note": ""
  },
  {
   "property": "C66",
   "status": "proved",
   "theorems": [
    "VecMath.C66_rejected3x3",
    "VecMath.C66_inverse3x3",
    "VecMath.C66_rejected4x4",
    "VecMath.C66_inverse4x4",
    "VecMath.C66_residual3x3",
    "VecMath.C66_residual4x4",
    "VecMath.C66_inRange3x3",
    "VecMath.C66_inRange4x4"
   ],
   "note": ""
  },
  {
   "property": "C67",
   "status": "proved",
   "theorems": [
    "VecMath.C67_extent2",
    "VecMath.C67_extent3",
    "VecMath.C67_area",
    "VecMath.C67_volume",
    "VecMath.C67_surface",
    "VecMath.C67_center2",
    "VecMath.C67_center3"
   ],
   "note": ""
  },
  {
   "property": "C68",
   "status": "proved",
   "theorems": [
    "VecMath.C68_vector2",
    "VecMath.C68_vector3",
    "VecMath.C68_dot2",
    "VecMath.C68_dot3",
    "VecMath.C68_cross3",
    "VecMath.C68_length2",
    "VecMath.C68_length3",
    "VecMath.C68_distance2",
    "VecMath.C68_distance3",
    "VecMath.C68_at2",
    "VecMath.C68_at3",
    "VecMath.C68_product3x3",
    "VecMath.C68_product4x4",
    "VecMath.C68_transform_vector2",
    "VecMath.C68_transform_vector3",
    "VecMath.C68_transform_point2",
    "VecMath.C68_transform_point3",
    "VecMath.C68_box2",
    "VecMath.C68_box3",
    "VecMath.C68_invertible3x3",
    "VecMath.C68_inverse3x3",
    "VecMath.C68_invertible4x4",
    "VecMath.C68_inverse4x4",
    "VecMath.C68_transform_box2",
    "VecMath.C68_transform_box_contains2",
    "VecMath.C68_transform_box3",
    "VecMath.C68_transform_box_contains3",
    "VecMath.C68_point2",
    "VecMath.C68_scale2",
    "VecMath.C68_point3",
    "VecMath.C68_scale3",
    "VecMath.C68_transform_ray2",
    "VecMath.C68_transform_ray3"
   ],
   "note": ""
  },
  {
   "property": "C69",
   "status": "proved",
   "theorems": [
    "VecMath.C69_extent2",
    "VecMath.C69_extent3",
    "VecMath.C69_area",
    "VecMath.C69_volume",
    "VecMath.C69_surface",
    "VecMath.C69_union_area",
    "VecMath.C69_union3",
    "VecMath.C69_length2",
    "VecMath.C69_length3",
    "VecMath.C69_distance2",
    "VecMath.C69_distance3",
    "VecMath.C69_union_right2",
    "VecMath.C69_union_right3",
    "VecMath.C69_intersect2",
    "VecMath.C69_intersect3"
   ],
   "note": ""
  },
  {
   "property": "C70",
   "status": "proved",
   "theorems": [
    "VecMath.C70_nested2",
    "VecMath.C70_nested3",
    "VecMath.C70_cull2",
    "VecMath.C70_cull3",
    "VecMath.C70_search2",
    "VecMath.C70_search_point2",
    "VecMath.C70_search_box2",
    "VecMath.C70_search3",
    "VecMath.C70_search_point3",
    "VecMath.C70_search_box3"
   ],
   "note": ""
  },
  {
   "property": "C71",
   "status": "proved",
   "theorems": [
    "VecMath.C71_forward2",
    "VecMath.C71_inverse2",
    "VecMath.C71_closed2",
    "VecMath.C71_exact2",
    "VecMath.C71_forward3",
    "VecMath.C71_inverse3",
    "VecMath.C71_closed3",
    "VecMath.C71_exact3",
    "VecMath.C71_closed_inverse2",
    "VecMath.C71_closed_inverse3"
   ],
   "note": ""
  },
  {
   "property": "C72",
   "status": "proved",
   "theorems": [
    "VecMath.C72_drift2",
    "VecMath.C72_bounded2",
    "VecMath.C72_transpose2",
    "VecMath.C72_affine2",
    "VecMath.C72_vector2",
    "VecMath.C72_undo2",
    "VecMath.C72_point2",
    "VecMath.C72_drift3",
    "VecMath.C72_bounded3",
    "VecMath.C72_transpose3",
    "VecMath.C72_affine3",
    "VecMath.C72_vector3",
    "VecMath.C72_undo3",
    "VecMath.C72_point3",
    "VecMath.C72_rotate2",
    "VecMath.C72_rotate_x",
    "VecMath.C72_rotate_y",
    "VecMath.C72_rotate_z",
    "VecMath.C72_rotate_axis",
    "VecMath.C72_turns2",
    "VecMath.C72_turns_x",
    "VecMath.C72_turns_y",
    "VecMath.C72_turns_z",
    "VecMath.C72_turns_axis"
   ],
   "note": ""
  },
  {
   "property": "C73",
   "status": "proved",
   "theorems": [
    "VecMath.C73_permute_dot_false",
    "VecMath.C73_mirror_center_false",
    "VecMath.C73_mirror_hit2",
    "VecMath.C73_permute_hit2",
    "VecMath.C73_mirror_inside2",
    "VecMath.C73_permute_inside2",
    "VecMath.C73_mirror_overlaps2",
    "VecMath.C73_permute_overlaps2",
    "VecMath.C73_mirror_union2",
    "VecMath.C73_mirror_grow2",
    "VecMath.C73_mirror_intersect2",
    "VecMath.C73_mirror_diagonal2",
    "VecMath.C73_mirror_dot2",
    "VecMath.C73_mirror_length2",
    "VecMath.C73_mirror_distance2",
    "VecMath.C73_mirror_normalize2",
    "VecMath.C73_mirror_area",
    "VecMath.C73_swap_measures2",
    "VecMath.C73_mirror_dimension2",
    "VecMath.C73_mirror_hit3",
    "VecMath.C73_permute_hit3",
    "VecMath.C73_mirror_inside3",
    "VecMath.C73_permute_inside3",
    "VecMath.C73_mirror_overlaps3",
    "VecMath.C73_permute_overlaps3",
    "VecMath.C73_mirror_union3",
    "VecMath.C73_mirror_grow3",
    "VecMath.C73_mirror_intersect3",
    "VecMath.C73_mirror_diagonal3",
    "VecMath.C73_mirror_dot3",
    "VecMath.C73_mirror_length3",
    "VecMath.C73_mirror_distance3",
    "VecMath.C73_mirror_normalize3",
    "VecMath.C73_mirror_volume",
    "VecMath.C73_mirror_cross",
    "VecMath.C73_swap_measures3",
    "VecMath.C73_mirror_dimension3"
   ],
   "note": ""
  },
  {
   "property": "C74",
   "status": "proved",
   "theorems": [
    "VecMath.C74_add2",
    "VecMath.C74_sub2",
    "VecMath.C74_add_point2",
    "VecMath.C74_sub_point2",
    "VecMath.C74_diff2",
    "VecMath.C74_neg2",
    "VecMath.C74_mul2",
    "VecMath.C74_div2",
    "VecMath.C74_dot2",
    "VecMath.C74_length2",
    "VecMath.C74_normalize2",
    "VecMath.C74_distance2",
    "VecMath.C74_inside2",
    "VecMath.C74_overlaps2",
    "VecMath.C74_union2",
    "VecMath.C74_grow2",
    "VecMath.C74_intersect2",
    "VecMath.C74_diagonal2",
    "VecMath.C74_dimension2",
    "VecMath.C74_center2",
    "VecMath.C74_hit2",
    "VecMath.C74_hit_scaled2",
    "VecMath.C74_area",
    "VecMath.C74_add3",
    "VecMath.C74_sub3",
    "VecMath.C74_add_point3",
    "VecMath.C74_sub_point3",
    "VecMath.C74_diff3",
    "VecMath.C74_neg3",
    "VecMath.C74_mul3",
    "VecMath.C74_div3",
    "VecMath.C74_dot3",
    "VecMath.C74_length3",
    "VecMath.C74_normalize3",
    "VecMath.C74_distance3",
    "VecMath.C74_inside3",
    "VecMath.C74_overlaps3",
    "VecMath.C74_union3",
    "VecMath.C74_grow3",
    "VecMath.C74_intersect3",
    "VecMath.C74_diagonal3",
    "VecMath.C74_dimension3",
    "VecMath.C74_center3",
    "VecMath.C74_hit3",
    "VecMath.C74_hit_scaled3",
    "VecMath.C74_volume",
    "VecMath.C74_cross"
   ],
   "note": ""
  },
  {
   "property": "C75",
   "status": "proved",
   "theorems": [
    "VecMath.C75_closest_returns_nan",
    "VecMath.C75_nan_ray_hits",
    "VecMath.C75_dot2",
    "VecMath.C75_length2",
    "VecMath.C75_normalize2",
    "VecMath.C75_distance2",
    "VecMath.C75_relative_length2",
    "VecMath.C75_relative_distance2",
    "VecMath.C75_ray_at2",
    "VecMath.C75_dot3",
    "VecMath.C75_length3",
    "VecMath.C75_normalize3",
    "VecMath.C75_distance3",
    "VecMath.C75_relative_length3",
    "VecMath.C75_relative_distance3",
    "VecMath.C75_ray_at3",
    "VecMath.C75_cross",
    "VecMath.C75_matrix_point2",
    "VecMath.C75_matrix_point_row2",
    "VecMath.C75_matrix_vector2",
    "VecMath.C75_matrix_vector_row2",
    "VecMath.C75_transform_ray2",
    "VecMath.C75_product_left2",
    "VecMath.C75_product_right2",
    "VecMath.C75_try_from2",
    "VecMath.C75_matrix_point3",
    "VecMath.C75_matrix_point_row3",
    "VecMath.C75_matrix_vector3",
    "VecMath.C75_matrix_vector_row3",
    "VecMath.C75_transform_ray3",
    "VecMath.C75_product_left3",
    "VecMath.C75_product_right3",
    "VecMath.C75_try_from3",
    "VecMath.C75_transform_box2",
    "VecMath.C75_is_inside2",
    "VecMath.C75_overlaps2",
    "VecMath.C75_union_point2",
    "VecMath.C75_transform_box3",
    "VecMath.C75_is_inside3",
    "VecMath.C75_overlaps3",
    "VecMath.C75_union_point3",
    "VecMath.C75_ray_all_nan2",
    "VecMath.C75_ray_all_nan3",
    "VecMath.C75_ray_nan_x",
    "VecMath.C75_ray_nan_y",
    "VecMath.C75_ray_nan_z",
    "VecMath.C75_ray_nan2_x",
    "VecMath.C75_ray_nan2_y"
   ],
   "note": ""
  },
  {
   "property": "C76",
   "status": "proved",
   "theorems": [
    "VecMath.C76_inverse_look_at",
    "VecMath.C76_exact_frame",
    "VecMath.C76_orthonormal",
    "VecMath.C76_exact_inverse",
    "VecMath.C76_look_at",
    "VecMath.C62_near3"
   ],
   "note": ""
  },
  {
   "property": "C77",
   "status": "proved",
   "theorems": [
    "VecMath.C77_corners2",
    "VecMath.C77_contains2",
    "VecMath.C77_contains_computed2",
    "VecMath.C77_corners3",
    "VecMath.C77_contains3",
    "VecMath.C77_contains_computed3",
    "VecMath.C68_transform_box_contains2",
    "VecMath.C68_transform_box_contains3"
   ],
   "note": ""
  },
  {
   "property": "C78",
   "status": "proved",
   "theorems": [
    "VecMath.C78_infinite_absorbs2",
    "VecMath.C78_tree2",
    "VecMath.C78_schedule2",
    "VecMath.C78_chunks2",
    "VecMath.C78_joins_nothing2",
    "VecMath.C78_intersect2",
    "VecMath.C78_intersect_schedule2",
    "VecMath.C78_infinite_absorbs3",
    "VecMath.C78_tree3",
    "VecMath.C78_schedule3",
    "VecMath.C78_chunks3",
    "VecMath.C78_joins_nothing3",
    "VecMath.C78_intersect3",
    "VecMath.C78_intersect_schedule3"
   ],
   "note": ""
  },
  {
   "property": "C79",
   "status": "proved",
   "theorems": [
    "VecMath.C79_shortest2",
    "VecMath.C79_shape_shortest2",
    "VecMath.C79_order_shortest2",
    "VecMath.C79_longest2",
    "VecMath.C79_shape_longest2",
    "VecMath.C79_order_longest2",
    "VecMath.C79_closest2",
    "VecMath.C79_shape_closest2",
    "VecMath.C79_order_closest2",
    "VecMath.C79_farthest2",
    "VecMath.C79_shape_farthest2",
    "VecMath.C79_order_farthest2",
    "VecMath.C79_shortest3",
    "VecMath.C79_shape_shortest3",
    "VecMath.C79_order_shortest3",
    "VecMath.C79_longest3",
    "VecMath.C79_shape_longest3",
    "VecMath.C79_order_longest3",
    "VecMath.C79_closest3",
    "VecMath.C79_shape_closest3",
    "VecMath.C79_order_closest3",
    "VecMath.C79_farthest3",
    "VecMath.C79_shape_farthest3",
    "VecMath.C79_order_farthest3",
    "VecMath.C79_nan2",
    "VecMath.C79_nan3"
   ],
   "note": ""
  },
  {
   "property": "C80",
   "status": "proved",
   "theorems": [
    "VecMath.C80_in_plane2",
    "VecMath.C80_in_plane3",
    "VecMath.C80_cells2",
    "VecMath.C80_cut2",
    "VecMath.C80_parts2",
    "VecMath.C80_kd2",
    "VecMath.C80_cell2",
    "VecMath.C80_cells3",
    "VecMath.C80_cut3",
    "VecMath.C80_parts3",
    "VecMath.C80_kd3",
    "VecMath.C80_cell3"
   ],
   "note": ""
  },
  {
   "property": "C81",
   "status": "proved",
   "theorems": [
    "VecMath.Rust.C81_S_half",
    "VecMath.Rust.C81_S_two",
    "VecMath.Rust.C81_min_S",
    "VecMath.Rust.C81_max_S",
    "VecMath.Rust.C81_S_length",
    "VecMath.Rust.C81_length_S",
    "VecMath.Rust.C81_S_distance",
    "VecMath.Rust.C81_distance_S",
    "VecMath.Rust.C81_S_is_shorter_than",
    "VecMath.Rust.C81_S_is_longer_than",
    "VecMath.Rust.C81_S_is_closer_to",
    "VecMath.Rust.C81_S_is_farther_from",
    "VecMath.Rust.C81_S_shortest",
    "VecMath.Rust.C81_shortest_S",
    "VecMath.Rust.C81_S_longest",
    "VecMath.Rust.C81_longest_S",
    "VecMath.Rust.C81_S_closest",
    "VecMath.Rust.C81_closest_S",
    "VecMath.Rust.C81_S_farthest",
    "VecMath.Rust.C81_farthest_S",
    "VecMath.Rust.C81_Vector2_new",
    "VecMath.Rust.C81_vector2",
    "VecMath.Rust.C81_vector2f",
    "VecMath.Rust.C81_vector2d",
    "VecMath.Rust.C81_Vector2_zero",
    "VecMath.Rust.C81_Vector2_x_axis",
    "VecMath.Rust.C81_Vector2_y_axis",
    "VecMath.Rust.C81_Vector2_axis",
    "VecMath.Rust.C81_Vector2_normalize",
    "VecMath.Rust.C81_Vector2_floor",
    "VecMath.Rust.C81_Vector2_ceil",
    "VecMath.Rust.C81_Vector2_round",
    "VecMath.Rust.C81_Vector2_trunc",
    "VecMath.Rust.C81_Vector2_fract",
    "VecMath.Rust.C81_Vector2_abs",
    "VecMath.Rust.C81_Vector2_min_dimension",
    "VecMath.Rust.C81_Vector2_max_dimension",
    "VecMath.Rust.C81_Vector2_permute",
    "VecMath.Rust.C81_Vector2_index",
    "VecMath.Rust.C81_Vector2_index_mut",
    "VecMath.Rust.C81_Vector2_min",
    "VecMath.Rust.C81_min_Vector2",
    "VecMath.Rust.C81_Vector2_max",
    "VecMath.Rust.C81_max_Vector2",
    "VecMath.Rust.C81_Vector2_length",
    "VecMath.Rust.C81_length_Vector2",
    "VecMath.Rust.C81_Vector2_dot",
    "VecMath.Rust.C81_dot_Vector2",
    "VecMath.Rust.C81_Vector2_is_shorter_than",
    "VecMath.Rust.C81_Vector2_is_longer_than",
    "VecMath.Rust.C81_Vector2_shortest",
    "VecMath.Rust.C81_shortest_Vector2",
    "VecMath.Rust.C81_Vector2_longest",
    "VecMath.Rust.C81_longest_Vector2",
    "VecMath.Rust.C81_Vector2_add",
    "VecMath.Rust.C81_Vector2_add_assign",
    "VecMath.Rust.C81_Vector2_sub",
    "VecMath.Rust.C81_Vector2_sub_assign",
    "VecMath.Rust.C81_Vector2_neg",
    "VecMath.Rust.C81_Vector2_mul",
    "VecMath.Rust.C81_Vector2_mul_assign",
    "VecMath.Rust.C81_Vector2_div",
    "VecMath.Rust.C81_Vector2_div_assign",
    "VecMath.Rust.C81_scalar_mul_Vector2",
    "VecMath.Rust.C81_Vector2_from",
    "VecMath.Rust.C81_Point2_new",
    "VecMath.Rust.C81_point2",
    "VecMath.Rust.C81_point2f",
    "VecMath.Rust.C81_point2d",
    "VecMath.Rust.C81_Point2_origin",
    "VecMath.Rust.C81_Point2_floor",
    "VecMath.Rust.C81_Point2_ceil",
    "VecMath.Rust.C81_Point2_round",
    "VecMath.Rust.C81_Point2_trunc",
    "VecMath.Rust.C81_Point2_fract",
    "VecMath.Rust.C81_Point2_abs",
    "VecMath.Rust.C81_Point2_min_dimension",
    "VecMath.Rust.C81_Point2_max_dimension",
    "VecMath.Rust.C81_Point2_permute",
    "VecMath.Rust.C81_Point2_index",
    "VecMath.Rust.C81_Point2_index_mut",
    "VecMath.Rust.C81_Point2_min",
    "VecMath.Rust.C81_min_Point2",
    "VecMath.Rust.C81_Point2_max",
    "VecMath.Rust.C81_max_Point2",
    "VecMath.Rust.C81_Point2_distance",
    "VecMath.Rust.C81_distance_Point2",
    "VecMath.Rust.C81_Point2_is_closer_to",
    "VecMath.Rust.C81_Point2_is_farther_from",
    "VecMath.Rust.C81_Point2_closest",
    "VecMath.Rust.C81_closest_Point2",
    "VecMath.Rust.C81_Point2_farthest",
    "VecMath.Rust.C81_farthest_Point2",
    "VecMath.Rust.C81_Point2_add",
    "VecMath.Rust.C81_Point2_add_assign",
    "VecMath.Rust.C81_Point2_sub",
    "VecMath.Rust.C81_Point2_sub_assign",
    "VecMath.Rust.C81_Point2_sub_point",
    "VecMath.Rust.C81_Point2_neg",
    "VecMath.Rust.C81_Point2_mul",
    "VecMath.Rust.C81_Point2_mul_assign",
    "VecMath.Rust.C81_Point2_div",
    "VecMath.Rust.C81_Point2_div_assign",
    "VecMath.Rust.C81_scalar_mul_Point2",
    "VecMath.Rust.C81_Point2_from",
    "VecMath.Rust.C81_Ray2_new",
    "VecMath.Rust.C81_ray2",
    "VecMath.Rust.C81_ray2f",
    "VecMath.Rust.C81_ray2d",
    "VecMath.Rust.C81_Ray2_at",
    "VecMath.Rust.C81_BoundingBox2_new",
    "VecMath.Rust.C81_BoundingBox2_empty",
    "VecMath.Rust.C81_BoundingBox2_infinite",
    "VecMath.Rust.C81_BoundingBox2_width",
    "VecMath.Rust.C81_BoundingBox2_height",
    "VecMath.Rust.C81_BoundingBox2_area",
    "VecMath.Rust.C81_BoundingBox2_size",
    "VecMath.Rust.C81_BoundingBox2_extent",
    "VecMath.Rust.C81_BoundingBox2_center",
    "VecMath.Rust.C81_BoundingBox2_diagonal",
    "VecMath.Rust.C81_BoundingBox2_min_dimension",
    "VecMath.Rust.C81_BoundingBox2_max_dimension",
    "VecMath.Rust.C81_BoundingBox2_overlaps",
    "VecMath.Rust.C81_BoundingBox2_is_inside",
    "VecMath.Rust.C81_BoundingBox2_union",
    "VecMath.Rust.C81_union_BoundingBox2",
    "VecMath.Rust.C81_BoundingBox2_union_point",
    "VecMath.Rust.C81_union_BoundingBox2_point",
    "VecMath.Rust.C81_BoundingBox2_intersect",
    "VecMath.Rust.C81_intersect_BoundingBox2",
    "VecMath.Rust.C81_BoundingBox2_intersect_ray",
    "VecMath.Rust.C81_intersect_ray_BoundingBox2",
    "VecMath.Rust.C81_BoundingBox2_corner",
    "VecMath.Rust.C81_Vector3_new",
    "VecMath.Rust.C81_vector3",
    "VecMath.Rust.C81_vector3f",
    "VecMath.Rust.C81_vector3d",
    "VecMath.Rust.C81_Vector3_zero",
    "VecMath.Rust.C81_Vector3_x_axis",
    "VecMath.Rust.C81_Vector3_y_axis",
    "VecMath.Rust.C81_Vector3_z_axis",
    "VecMath.Rust.C81_Vector3_axis",
    "VecMath.Rust.C81_Vector3_normalize",
    "VecMath.Rust.C81_Vector3_floor",
    "VecMath.Rust.C81_Vector3_ceil",
    "VecMath.Rust.C81_Vector3_round",
    "VecMath.Rust.C81_Vector3_trunc",
    "VecMath.Rust.C81_Vector3_fract",
    "VecMath.Rust.C81_Vector3_abs",
    "VecMath.Rust.C81_Vector3_min_dimension",
    "VecMath.Rust.C81_Vector3_max_dimension",
    "VecMath.Rust.C81_Vector3_permute",
    "VecMath.Rust.C81_Vector3_index",
    "VecMath.Rust.C81_Vector3_index_mut",
    "VecMath.Rust.C81_Vector3_min",
    "VecMath.Rust.C81_min_Vector3",
    "VecMath.Rust.C81_Vector3_max",
    "VecMath.Rust.C81_max_Vector3",
    "VecMath.Rust.C81_Vector3_length",
    "VecMath.Rust.C81_length_Vector3",
    "VecMath.Rust.C81_Vector3_dot",
    "VecMath.Rust.C81_dot_Vector3",
    "VecMath.Rust.C81_Vector3_cross",
    "VecMath.Rust.C81_cross_Vector3",
    "VecMath.Rust.C81_Vector3_is_shorter_than",
    "VecMath.Rust.C81_Vector3_is_longer_than",
    "VecMath.Rust.C81_Vector3_shortest",
    "VecMath.Rust.C81_shortest_Vector3",
    "VecMath.Rust.C81_Vector3_longest",
    "VecMath.Rust.C81_longest_Vector3",
    "VecMath.Rust.C81_Vector3_add",
    "VecMath.Rust.C81_Vector3_add_assign",
    "VecMath.Rust.C81_Vector3_sub",
    "VecMath.Rust.C81_Vector3_sub_assign",
    "VecMath.Rust.C81_Vector3_neg",
    "VecMath.Rust.C81_Vector3_mul",
    "VecMath.Rust.C81_Vector3_mul_assign",
    "VecMath.Rust.C81_Vector3_div",
    "VecMath.Rust.C81_Vector3_div_assign",
    "VecMath.Rust.C81_scalar_mul_Vector3",
    "VecMath.Rust.C81_Vector3_from",
    "VecMath.Rust.C81_Point3_new",
    "VecMath.Rust.C81_point3",
    "VecMath.Rust.C81_point3f",
    "VecMath.Rust.C81_point3d",
    "VecMath.Rust.C81_Point3_origin",
    "VecMath.Rust.C81_Point3_floor",
    "VecMath.Rust.C81_Point3_ceil",
    "VecMath.Rust.C81_Point3_round",
    "VecMath.Rust.C81_Point3_trunc",
    "VecMath.Rust.C81_Point3_fract",
    "VecMath.Rust.C81_Point3_abs",
    "VecMath.Rust.C81_Point3_min_dimension",
    "VecMath.Rust.C81_Point3_max_dimension",
    "VecMath.Rust.C81_Point3_permute",
    "VecMath.Rust.C81_Point3_index",
    "VecMath.Rust.C81_Point3_index_mut",
    "VecMath.Rust.C81_Point3_min",
    "VecMath.Rust.C81_min_Point3",
    "VecMath.Rust.C81_Point3_max",
    "VecMath.Rust.C81_max_Point3",
    "VecMath.Rust.C81_Point3_distance",
    "VecMath.Rust.C81_distance_Point3",
    "VecMath.Rust.C81_Point3_is_closer_to",
    "VecMath.Rust.C81_Point3_is_farther_from",
    "VecMath.Rust.C81_Point3_closest",
    "VecMath.Rust.C81_closest_Point3",
    "VecMath.Rust.C81_Point3_farthest",
    "VecMath.Rust.C81_farthest_Point3",
    "VecMath.Rust.C81_Point3_add",
    "VecMath.Rust.C81_Point3_add_assign",
    "VecMath.Rust.C81_Point3_sub",
    "VecMath.Rust.C81_Point3_sub_assign",
    "VecMath.Rust.C81_Point3_sub_point",
    "VecMath.Rust.C81_Point3_neg",
    "VecMath.Rust.C81_Point3_mul",
    "VecMath.Rust.C81_Point3_mul_assign",
    "VecMath.Rust.C81_Point3_div",
    "VecMath.Rust.C81_Point3_div_assign",
    "VecMath.Rust.C81_scalar_mul_Point3",
    "VecMath.Rust.C81_Point3_from",
    "VecMath.Rust.C81_Ray3_new",
    "VecMath.Rust.C81_ray3",
    "VecMath.Rust.C81_ray3f",
    "VecMath.Rust.C81_ray3d",
    "VecMath.Rust.C81_Ray3_at",
    "VecMath.Rust.C81_BoundingBox3_new",
    "VecMath.Rust.C81_BoundingBox3_empty",
    "VecMath.Rust.C81_BoundingBox3_infinite",
    "VecMath.Rust.C81_BoundingBox3_width",
    "VecMath.Rust.C81_BoundingBox3_height",
    "VecMath.Rust.C81_BoundingBox3_depth",
    "VecMath.Rust.C81_BoundingBox3_surface_area",
    "VecMath.Rust.C81_BoundingBox3_volume",
    "VecMath.Rust.C81_BoundingBox3_size",
    "VecMath.Rust.C81_BoundingBox3_extent",
    "VecMath.Rust.C81_BoundingBox3_center",
    "VecMath.Rust.C81_BoundingBox3_diagonal",
    "VecMath.Rust.C81_BoundingBox3_min_dimension",
    "VecMath.Rust.C81_BoundingBox3_max_dimension",
    "VecMath.Rust.C81_BoundingBox3_overlaps",
    "VecMath.Rust.C81_BoundingBox3_is_inside",
    "VecMath.Rust.C81_BoundingBox3_union",
    "VecMath.Rust.C81_union_BoundingBox3",
    "VecMath.Rust.C81_BoundingBox3_union_point",
    "VecMath.Rust.C81_union_BoundingBox3_point",
    "VecMath.Rust.C81_BoundingBox3_intersect",
    "VecMath.Rust.C81_intersect_BoundingBox3",
    "VecMath.Rust.C81_BoundingBox3_intersect_ray",
    "VecMath.Rust.C81_intersect_ray_BoundingBox3",
    "VecMath.Rust.C81_BoundingBox3_corner",
    "VecMath.Rust.C81_eq_Vector2",
    "VecMath.Rust.C81_eq_Vector3",
    "VecMath.Rust.C81_eq_Point2",
    "VecMath.Rust.C81_eq_Point3",
    "VecMath.Rust.C81_eq_Ray2",
    "VecMath.Rust.C81_eq_Ray3",
    "VecMath.Rust.C81_eq_BoundingBox2",
    "VecMath.Rust.C81_eq_BoundingBox3",
    "VecMath.Rust.C81_eq_Matrix3x3",
    "VecMath.Rust.C81_eq_Matrix4x4",
    "VecMath.Rust.C81_eq_Transform2",
    "VecMath.Rust.C81_eq_Transform3",
    "VecMath.Rust.C81_eq_Dimension2",
    "VecMath.Rust.C81_eq_Dimension3",
    "VecMath.Rust.C81_eq_NonInvertibleMatrixError",
    "VecMath.Rust.C81_Matrix3x3_new",
    "VecMath.Rust.C81_Matrix3x3_identity",
    "VecMath.Rust.C81_Matrix3x3_translate",
    "VecMath.Rust.C81_Matrix3x3_scale",
    "VecMath.Rust.C81_Matrix3x3_scale_uniform",
    "VecMath.Rust.C81_Matrix3x3_rotate",
    "VecMath.Rust.C81_Transform2_identity",
    "VecMath.Rust.C81_Transform2_translate",
    "VecMath.Rust.C81_Transform2_scale",
    "VecMath.Rust.C81_Transform2_scale_uniform",
    "VecMath.Rust.C81_Transform2_rotate",
    "VecMath.Rust.C81_Matrix3x3_transpose",
    "VecMath.Rust.C81_Matrix3x3_mul",
    "VecMath.Rust.C81_Matrix3x3_mul_assign",
    "VecMath.Rust.C81_Matrix3x3_div",
    "VecMath.Rust.C81_Matrix3x3_div_assign",
    "VecMath.Rust.C81_scalar_mul_Matrix3x3",
    "VecMath.Rust.C81_Matrix3x3_mul_Point2",
    "VecMath.Rust.C81_Point2_mul_Matrix3x3",
    "VecMath.Rust.C81_Matrix3x3_mul_Vector2",
    "VecMath.Rust.C81_Vector2_mul_Matrix3x3",
    "VecMath.Rust.C81_Matrix3x3_mul_Matrix3x3",
    "VecMath.Rust.C81_Matrix3x3_inverse",
    "VecMath.Rust.C81_Transform2_new",
    "VecMath.Rust.C81_Transform2_and_then",
    "VecMath.Rust.C81_Transform2_inverse",
    "VecMath.Rust.C81_Transform2_transform_Point2",
    "VecMath.Rust.C81_Transform2_transform_Vector2",
    "VecMath.Rust.C81_Transform2_transform_Ray2",
    "VecMath.Rust.C81_Transform2_transform_BoundingBox2",
    "VecMath.Rust.C81_Transform2_try_from",
    "VecMath.Rust.C81_Matrix3x3_linear_index",
    "VecMath.Rust.C81_Matrix3x3_get",
    "VecMath.Rust.C81_Matrix3x3_set",
    "VecMath.Rust.C81_Matrix3x3_get_mut",
    "VecMath.Rust.C81_Matrix4x4_new",
    "VecMath.Rust.C81_Matrix4x4_identity",
    "VecMath.Rust.C81_Matrix4x4_translate",
    "VecMath.Rust.C81_Matrix4x4_scale",
    "VecMath.Rust.C81_Matrix4x4_scale_uniform",
    "VecMath.Rust.C81_Matrix4x4_rotate_x",
    "VecMath.Rust.C81_Matrix4x4_rotate_y",
    "VecMath.Rust.C81_Matrix4x4_rotate_z",
    "VecMath.Rust.C81_Matrix4x4_rotate_axis",
    "VecMath.Rust.C81_Transform3_identity",
    "VecMath.Rust.C81_Transform3_translate",
    "VecMath.Rust.C81_Transform3_scale",
    "VecMath.Rust.C81_Transform3_scale_uniform",
    "VecMath.Rust.C81_Transform3_rotate_x",
    "VecMath.Rust.C81_Transform3_rotate_y",
    "VecMath.Rust.C81_Transform3_rotate_z",
    "VecMath.Rust.C81_Transform3_rotate_axis",
    "VecMath.Rust.C81_Matrix4x4_inverse_look_at",
    "VecMath.Rust.C81_Matrix4x4_transpose",
    "VecMath.Rust.C81_Matrix4x4_mul",
    "VecMath.Rust.C81_Matrix4x4_mul_assign",
    "VecMath.Rust.C81_Matrix4x4_div",
    "VecMath.Rust.C81_Matrix4x4_div_assign",
    "VecMath.Rust.C81_scalar_mul_Matrix4x4",
    "VecMath.Rust.C81_Matrix4x4_mul_Point3",
    "VecMath.Rust.C81_Point3_mul_Matrix4x4",
    "VecMath.Rust.C81_Matrix4x4_mul_Vector3",
    "VecMath.Rust.C81_Vector3_mul_Matrix4x4",
    "VecMath.Rust.C81_Matrix4x4_mul_Matrix4x4",
    "VecMath.Rust.C81_Matrix4x4_inverse",
    "VecMath.Rust.C81_Transform3_new",
    "VecMath.Rust.C81_Transform3_and_then",
    "VecMath.Rust.C81_Transform3_inverse",
    "VecMath.Rust.C81_Transform3_transform_Point3",
    "VecMath.Rust.C81_Transform3_transform_Vector3",
    "VecMath.Rust.C81_Transform3_transform_Ray3",
    "VecMath.Rust.C81_Transform3_transform_BoundingBox3",
    "VecMath.Rust.C81_Transform3_try_from",
    "VecMath.Rust.C81_Transform3_look_at",
    "VecMath.Rust.C81_Matrix4x4_linear_index",
    "VecMath.Rust.C81_Matrix4x4_get",
    "VecMath.Rust.C81_Matrix4x4_set",
    "VecMath.Rust.C81_Matrix4x4_get_mut",
    "VecMath.Rust.C81_text_lib",
    "VecMath.Rust.C81_text_scalar",
    "VecMath.Rust.C81_text_minmax",
    "VecMath.Rust.C81_text_dot",
    "VecMath.Rust.C81_text_cross",
    "VecMath.Rust.C81_text_length",
    "VecMath.Rust.C81_text_distance",
    "VecMath.Rust.C81_text_union",
    "VecMath.Rust.C81_text_intersection",
    "VecMath.Rust.C81_text_transform",
    "VecMath.Rust.C81_text_dimension2",
    "VecMath.Rust.C81_text_dimension3",
    "VecMath.Rust.C81_text_vector2",
    "VecMath.Rust.C81_text_vector3",
    "VecMath.Rust.C81_text_point2",
    "VecMath.Rust.C81_text_point3",
    "VecMath.Rust.C81_text_ray2",
    "VecMath.Rust.C81_text_ray3",
    "VecMath.Rust.C81_text_boundingbox2",
    "VecMath.Rust.C81_text_boundingbox3",
    "VecMath.Rust.C81_text_transform2",
    "VecMath.Rust.C81_text_transform3",
    "VecMath.Rust.C81_text"
   ],
   "note": ""
  },
  {
   "property": "C82",
   "status": "proved",
   "theorems": [
    "VecMath.Rust.C82_methods",
    "VecMath.Rust.C82_free",
    "VecMath.Rust.C82_values_Vector2",
    "VecMath.Rust.C82_values_Vector3",
    "VecMath.Rust.C82_values_Point2",
    "VecMath.Rust.C82_values_Point3",
    "VecMath.Rust.C82_values_Ray2",
    "VecMath.Rust.C82_values_Ray3",
    "VecMath.Rust.C82_values_BoundingBox2",
    "VecMath.Rust.C82_values_BoundingBox3",
    "VecMath.Rust.C82_values_Matrix3x3",
    "VecMath.Rust.C82_values_Matrix4x4",
    "VecMath.Rust.C82_values_Transform2",
    "VecMath.Rust.C82_values_Transform3",
    "VecMath.Rust.C82_values_Dimension2",
    "VecMath.Rust.C82_values_Dimension3",
    "VecMath.Rust.C82_values_u32",
    "VecMath.Rust.C82_values_S"
   ],
   "note": ""
  },
  {
   "property": "C83",
   "status": "proved",
   "theorems": [
    "VecMath.C83_inside2",
    "VecMath.C83_entry2",
    "VecMath.C83_exit2",
    "VecMath.C83_computed_inside2",
    "VecMath.C83_computed_entry2",
    "VecMath.C83_computed_exit2",
    "VecMath.C83_inside3",
    "VecMath.C83_entry3",
    "VecMath.C83_exit3",
    "VecMath.C83_computed_inside3",
    "VecMath.C83_computed_entry3",
    "VecMath.C83_computed_exit3"
   ],
   "note": ""
  },
  {
   "property": "C84",
   "status": "proved",
   "theorems": [
    "VecMath.C84_orthogonal",
    "VecMath.C84_point2",
    "VecMath.C84_vector2",
    "VecMath.C84_ray2",
    "VecMath.C84_try_from2",
    "VecMath.C84_translate2",
    "VecMath.C84_scale2",
    "VecMath.C84_point3",
    "VecMath.C84_vector3",
    "VecMath.C84_ray3",
    "VecMath.C84_try_from3",
    "VecMath.C84_translate3",
    "VecMath.C84_scale3"
   ],
   "note": ""
  },
  {
   "property": "C85",
   "status": "proved",
   "theorems": [
    "VecMath.C85_point2",
    "VecMath.C85_ray2",
    "VecMath.C85_commute2",
    "VecMath.C85_point3",
    "VecMath.C85_ray3",
    "VecMath.C85_commute3"
   ],
   "note": ""
  },
  {
   "property": "C86",
   "status": "proved",
   "theorems": [
    "VecMath.C86_sum2",
    "VecMath.C86_multiple2",
    "VecMath.C86_dot2",
    "VecMath.C86_length2",
    "VecMath.C86_distance2",
    "VecMath.C86_at2",
    "VecMath.C86_box2",
    "VecMath.C86_union2",
    "VecMath.C86_ray2",
    "VecMath.C86_product3x3",
    "VecMath.C86_vector2",
    "VecMath.C86_point2",
    "VecMath.C86_sum3",
    "VecMath.C86_multiple3",
    "VecMath.C86_dot3",
    "VecMath.C86_length3",
    "VecMath.C86_distance3",
    "VecMath.C86_cross3",
    "VecMath.C86_at3",
    "VecMath.C86_box3",
    "VecMath.C86_union3",
    "VecMath.C86_ray3",
    "VecMath.C86_product4x4",
    "VecMath.C86_vector3",
    "VecMath.C86_point3",
    "VecMath.C86_dot_accurate2",
    "VecMath.C86_length_accurate2",
    "VecMath.C86_normalize_accurate2",
    "VecMath.C86_distance_accurate2",
    "VecMath.C86_dot_accurate3",
    "VecMath.C86_length_accurate3",
    "VecMath.C86_normalize_accurate3",
    "VecMath.C86_distance_accurate3",
    "VecMath.C86_f32_vector3",
    "VecMath.C86_f64_vector3",
    "VecMath.C86_f32_distance3",
    "VecMath.C86_f64_distance3",
    "VecMath.C86_f32_hit3",
    "VecMath.C86_f32_vector2",
    "VecMath.C86_f32_distance2",
    "VecMath.C86_f32_hit2",
    "VecMath.C86_f64_vector2",
    "VecMath.C86_f64_distance2",
    "VecMath.C86_f64_hit2",
    "VecMath.C86_f64_hit3"
   ],
   "note": ""
  },
  {
   "property": "C87",
   "status": "proved",
   "theorems": [
    "VecMath.C87_vector2",
    "VecMath.C87_point2",
    "VecMath.C87_segment2",
    "VecMath.C87_vector3",
    "VecMath.C87_point3",
    "VecMath.C87_segment3",
    "VecMath.C87_box2",
    "VecMath.C87_box3",
    "VecMath.C87_distant"
   ],
   "note": ""
  },
  {
   "property": "C88",
   "status": "proved",
   "theorems": [
    "VecMath.C88_monotone2",
    "VecMath.C88_convex2",
    "VecMath.C88_span2",
    "VecMath.C88_distance2",
    "VecMath.C88_monotone3",
    "VecMath.C88_convex3",
    "VecMath.C88_span3",
    "VecMath.C88_distance3"
   ],
   "note": ""
  },
  {
   "property": "C89",
   "status": "proved",
   "theorems": [
    "VecMath.C89_cosine_exceeds_32",
    "VecMath.C89_cosine_exceeds_64",
    "VecMath.C89_triangle2",
    "VecMath.C89_difference2",
    "VecMath.C89_cauchy_schwarz2",
    "VecMath.C89_cosine2",
    "VecMath.C89_triangle3",
    "VecMath.C89_difference3",
    "VecMath.C89_cauchy_schwarz3",
    "VecMath.C89_cosine3",
    "VecMath.C89_orthogonal3",
    "VecMath.C89_f32_vector3",
    "VecMath.C89_f64_vector3",
    "VecMath.C89_f32_triangle3",
    "VecMath.C89_f64_triangle3",
    "VecMath.C89_f32_vector2",
    "VecMath.C89_f32_triangle2",
    "VecMath.C89_f64_vector2",
    "VecMath.C89_f64_triangle2"
   ],
   "note": ""
  },
  {
   "property": "C90",
   "status": "proved",
   "theorems": [
    "VecMath.C90_closest2",
    "VecMath.C90_shortest2",
    "VecMath.C90_closest3",
    "VecMath.C90_shortest3",
    "VecMath.C90_f32_closest3",
    "VecMath.C90_f64_closest3",
    "VecMath.C90_f32_closest2",
    "VecMath.C90_f32_shortest2",
    "VecMath.C90_f32_shortest3",
    "VecMath.C90_f64_closest2",
    "VecMath.C90_f64_shortest2",
    "VecMath.C90_f64_shortest3"
   ],
   "note": ""
  },
  {
   "property": "C91",
   "status": "proved",
   "theorems": [
    "VecMath.C91_in_place_point2",
    "VecMath.C91_walk_point2",
    "VecMath.C91_exact_point2",
    "VecMath.C91_monotone_point2",
    "VecMath.C91_stuck_point2",
    "VecMath.C91_in_place_vector2",
    "VecMath.C91_walk_vector2",
    "VecMath.C91_exact_vector2",
    "VecMath.C91_monotone_vector2",
    "VecMath.C91_stuck_vector2",
    "VecMath.C91_mean2",
    "VecMath.C91_in_place_point3",
    "VecMath.C91_walk_point3",
    "VecMath.C91_exact_point3",
    "VecMath.C91_monotone_point3",
    "VecMath.C91_stuck_point3",
    "VecMath.C91_in_place_vector3",
    "VecMath.C91_walk_vector3",
    "VecMath.C91_exact_vector3",
    "VecMath.C91_monotone_vector3",
    "VecMath.C91_stuck_vector3",
    "VecMath.C91_mean3",
    "VecMath.C91_mean_outside_32",
    "VecMath.C91_mean_outside_64",
    "VecMath.C91_stuck_32",
    "VecMath.C91_stuck_64"
   ],
   "note": ""
  },
  {
   "property": "C92",
   "status": "proved",
   "theorems": [
    "VecMath.C92_cell2",
    "VecMath.C92_cover2",
    "VecMath.C92_overlap2",
    "VecMath.C92_progress2",
    "VecMath.C92_descend2",
    "VecMath.C92_depth2",
    "VecMath.C92_depth2_f32",
    "VecMath.C92_depth2_f64",
    "VecMath.C92_leaf2",
    "VecMath.C92_cell3",
    "VecMath.C92_cover3",
    "VecMath.C92_overlap3",
    "VecMath.C92_progress3",
    "VecMath.C92_descend3",
    "VecMath.C92_depth3",
    "VecMath.C92_depth3_f32",
    "VecMath.C92_depth3_f64",
    "VecMath.C92_leaf3",
    "VecMath.C92_longest_stalls"
   ],
   "note": ""
  },
  {
   "property": "C93",
   "status": "proved",
   "theorems": [
    "VecMath.C93_inside2",
    "VecMath.C93_entry2",
    "VecMath.C93_exit2",
    "VecMath.C93_inside3",
    "VecMath.C93_entry3",
    "VecMath.C93_exit3",
    "VecMath.C93_real2",
    "VecMath.C93_real3"
   ],
   "note": ""
  },
  {
   "property": "C94",
   "status": "proved",
   "theorems": [
    "VecMath.C94_order_shorter2",
    "VecMath.C94_sorted_shorter2",
    "VecMath.C94_stable_shorter2",
    "VecMath.C94_nan_shorter2",
    "VecMath.C94_order_longer2",
    "VecMath.C94_sorted_longer2",
    "VecMath.C94_stable_longer2",
    "VecMath.C94_nan_longer2",
    "VecMath.C94_order_closer2",
    "VecMath.C94_sorted_closer2",
    "VecMath.C94_stable_closer2",
    "VecMath.C94_nan_closer2",
    "VecMath.C94_order_farther2",
    "VecMath.C94_sorted_farther2",
    "VecMath.C94_stable_farther2",
    "VecMath.C94_nan_farther2",
    "VecMath.C94_order_shorter3",
    "VecMath.C94_sorted_shorter3",
    "VecMath.C94_stable_shorter3",
    "VecMath.C94_nan_shorter3",
    "VecMath.C94_order_longer3",
    "VecMath.C94_sorted_longer3",
    "VecMath.C94_stable_longer3",
    "VecMath.C94_nan_longer3",
    "VecMath.C94_order_closer3",
    "VecMath.C94_sorted_closer3",
    "VecMath.C94_stable_closer3",
    "VecMath.C94_nan_closer3",
    "VecMath.C94_order_farther3",
    "VecMath.C94_sorted_farther3",
    "VecMath.C94_stable_farther3",
    "VecMath.C94_nan_farther3",
    "VecMath.C94_order_shorter1",
    "VecMath.C94_sorted_shorter1",
    "VecMath.C94_stable_shorter1",
    "VecMath.C94_nan_shorter1",
    "VecMath.C94_order_longer1",
    "VecMath.C94_sorted_longer1",
    "VecMath.C94_stable_longer1",
    "VecMath.C94_nan_longer1",
    "VecMath.C94_order_closer1",
    "VecMath.C94_sorted_closer1",
    "VecMath.C94_stable_closer1",
    "VecMath.C94_nan_closer1",
    "VecMath.C94_order_farther1",
    "VecMath.C94_sorted_farther1",
    "VecMath.C94_stable_farther1",
    "VecMath.C94_nan_farther1"
   ],
   "note": ""
  },
  {
   "property": "C95",
   "status": "proved",
   "theorems": [
    "VecMath.C95_around2",
    "VecMath.C95_nan2",
    "VecMath.C95_finite2",
    "VecMath.C95_bounded2",
    "VecMath.C95_levels2",
    "VecMath.C95_around3",
    "VecMath.C95_nan3",
    "VecMath.C95_finite3",
    "VecMath.C95_bounded3",
    "VecMath.C95_levels3",
    "VecMath.C95_room2",
    "VecMath.C95_room3",
    "VecMath.C95_cull2",
    "VecMath.C95_cull3",
    "VecMath.C95_overflow2",
    "VecMath.C95_overflow3"
   ],
   "note": ""
  },
  {
   "property": "C96",
   "status": "proved",
   "theorems": [
    "VecMath.C96_aim2",
    "VecMath.C96_from2",
    "VecMath.C96_within2",
    "VecMath.C96_tree2",
    "VecMath.C96_aim3",
    "VecMath.C96_from3",
    "VecMath.C96_within3",
    "VecMath.C96_tree3",
    "VecMath.C96_segment2",
    "VecMath.C96_segment3",
    "VecMath.C96_overflow2",
    "VecMath.C96_overflow3"
   ],
   "note": ""
  },
  {
   "property": "C97",
   "status": "proved",
   "theorems": [
    "VecMath.C97_inside2",
    "VecMath.C97_nearest_point2",
    "VecMath.C97_prune2",
    "VecMath.C97_contract2",
    "VecMath.C97_search2",
    "VecMath.C97_best2",
    "VecMath.C97_inside3",
    "VecMath.C97_nearest_point3",
    "VecMath.C97_prune3",
    "VecMath.C97_contract3",
    "VecMath.C97_search3",
    "VecMath.C97_best3",
    "VecMath.C97_real2",
    "VecMath.C97_ball2",
    "VecMath.C97_real3",
    "VecMath.C97_ball3"
   ],
   "note": ""
  },
  {
   "property": "C98",
   "status": "proved",
   "theorems": [
    "VecMath.C98_axis2",
    "VecMath.C98_component2",
    "VecMath.C98_normalize2",
    "VecMath.C98_distance2",
    "VecMath.C98_axis_distance2",
    "VecMath.C98_axis3",
    "VecMath.C98_component3",
    "VecMath.C98_normalize3",
    "VecMath.C98_distance3",
    "VecMath.C98_axis_distance3",
    "VecMath.C98_underflow2",
    "VecMath.C98_underflow3"
   ],
   "note": ""
  },
  {
   "property": "C99",
   "status": "proved",
   "theorems": [
    "VecMath.C99_order2",
    "VecMath.C99_query2",
    "VecMath.C99_where2",
    "VecMath.C99_exact2",
    "VecMath.C99_neighbours2",
    "VecMath.C99_within2",
    "VecMath.C99_order3",
    "VecMath.C99_query3",
    "VecMath.C99_where3",
    "VecMath.C99_exact3",
    "VecMath.C99_neighbours3",
    "VecMath.C99_within3",
    "VecMath.C99_real2",
    "VecMath.C99_real3",
    "VecMath.C99_high",
    "VecMath.C99_touching"
   ],
   "note": ""
  },
  {
   "property": "C100",
   "status": "proved",
   "theorems": [
    "VecMath.C100_shrinks_Vector2",
    "VecMath.C100_keeps_Vector2",
    "VecMath.C100_stuck_Vector2",
    "VecMath.C100_vanishes_Vector2",
    "VecMath.C100_exact_Vector2",
    "VecMath.C100_back_Vector2",
    "VecMath.C100_accurate_Vector2",
    "VecMath.C100_length_Vector2",
    "VecMath.C100_shrinks_Vector3",
    "VecMath.C100_keeps_Vector3",
    "VecMath.C100_stuck_Vector3",
    "VecMath.C100_vanishes_Vector3",
    "VecMath.C100_exact_Vector3",
    "VecMath.C100_back_Vector3",
    "VecMath.C100_accurate_Vector3",
    "VecMath.C100_length_Vector3",
    "VecMath.C100_shrinks_Point2",
    "VecMath.C100_keeps_Point2",
    "VecMath.C100_stuck_Point2",
    "VecMath.C100_vanishes_Point2",
    "VecMath.C100_exact_Point2",
    "VecMath.C100_back_Point2",
    "VecMath.C100_accurate_Point2",
    "VecMath.C100_shrinks_Point3",
    "VecMath.C100_keeps_Point3",
    "VecMath.C100_stuck_Point3",
    "VecMath.C100_vanishes_Point3",
    "VecMath.C100_exact_Point3",
    "VecMath.C100_back_Point3",
    "VecMath.C100_accurate_Point3",
    "VecMath.C100_shrinks_Matrix3x3",
    "VecMath.C100_keeps_Matrix3x3",
    "VecMath.C100_stuck_Matrix3x3",
    "VecMath.C100_vanishes_Matrix3x3",
    "VecMath.C100_exact_Matrix3x3",
    "VecMath.C100_back_Matrix3x3",
    "VecMath.C100_accurate_Matrix3x3",
    "VecMath.C100_shrinks_Matrix4x4",
    "VecMath.C100_keeps_Matrix4x4",
    "VecMath.C100_stuck_Matrix4x4",
    "VecMath.C100_vanishes_Matrix4x4",
    "VecMath.C100_exact_Matrix4x4",
    "VecMath.C100_back_Matrix4x4",
    "VecMath.C100_accurate_Matrix4x4",
    "VecMath.C100_never_stops",
    "VecMath.C100_halvings32",
    "VecMath.C100_halvings64"
   ],
   "note": ""
  },
  {
   "property": "C101",
   "status": "proved",
   "theorems": [
    "VecMath.C101_components2",
    "VecMath.C101_named2",
    "VecMath.C101_dot2",
    "VecMath.C101_sum2",
    "VecMath.C101_orthogonal2",
    "VecMath.C101_ray2",
    "VecMath.C101_columns2",
    "VecMath.C101_translation2",
    "VecMath.C101_determined2",
    "VecMath.C101_infinite2",
    "VecMath.C101_unit2",
    "VecMath.C101_components3",
    "VecMath.C101_named3",
    "VecMath.C101_dot3",
    "VecMath.C101_sum3",
    "VecMath.C101_orthogonal3",
    "VecMath.C101_ray3",
    "VecMath.C101_columns3",
    "VecMath.C101_translation3",
    "VecMath.C101_determined3",
    "VecMath.C101_infinite3",
    "VecMath.C101_unit3",
    "VecMath.C101_cross3"
   ],
   "note": ""
  },
  {
   "property": "C102",
   "status": "proved",
   "theorems": [
    "VecMath.C102_unit2",
    "VecMath.C102_translate2",
    "VecMath.C102_translations2",
    "VecMath.C102_scale2",
    "VecMath.C102_place2",
    "VecMath.C102_shift_scale2",
    "VecMath.C102_unit3",
    "VecMath.C102_translate3",
    "VecMath.C102_translations3",
    "VecMath.C102_scale3",
    "VecMath.C102_place3",
    "VecMath.C102_shift_scale3",
    "VecMath.C102_shift_scale_false",
    "VecMath.C102_walk_false",
    "VecMath.C102_scale_false"
   ],
   "note": ""
  },
  {
   "property": "C103",
   "status": "proved",
   "theorems": [
    "VecMath.C103_search2",
    "VecMath.C103_first2",
    "VecMath.C103_boxes2",
    "VecMath.C103_between2",
    "VecMath.C103_search3",
    "VecMath.C103_first3",
    "VecMath.C103_boxes3",
    "VecMath.C103_between3",
    "VecMath.C103_flat_lost2",
    "VecMath.C103_flat_lost3"
   ],
   "note": ""
  },
  {
   "property": "C104",
   "status": "proved",
   "theorems": [
    "VecMath.C104_two2",
    "VecMath.C104_self2",
    "VecMath.C104_sweep2",
    "VecMath.C104_agree2",
    "VecMath.C104_two3",
    "VecMath.C104_self3",
    "VecMath.C104_sweep3",
    "VecMath.C104_agree3"
   ],
   "note": ""
  },
  {
   "property": "C105",
   "status": "proved",
   "theorems": [
    "VecMath.C105_point2",
    "VecMath.C105_swept2",
    "VecMath.C105_contact2",
    "VecMath.C105_fat2",
    "VecMath.C105_fat_apart2",
    "VecMath.C105_point3",
    "VecMath.C105_swept3",
    "VecMath.C105_contact3",
    "VecMath.C105_fat3",
    "VecMath.C105_fat_apart3",
    "VecMath.C105_steps_leave2",
    "VecMath.C105_steps_leave3"
   ],
   "note": ""
  },
  {
   "property": "C106",
   "status": "proved",
   "theorems": [
    "VecMath.C106_float_translate2",
    "VecMath.C106_float_scale2",
    "VecMath.C106_float_rotate2",
    "VecMath.C106_float_translate3",
    "VecMath.C106_float_scale3",
    "VecMath.C106_float_rotate3",
    "VecMath.C106_float2",
    "VecMath.C106_float3",
    "VecMath.C106_dot2",
    "VecMath.C106_unique2",
    "VecMath.C106_plane2",
    "VecMath.C106_ray2",
    "VecMath.C106_compose2",
    "VecMath.C106_rigid2",
    "VecMath.C106_dot3",
    "VecMath.C106_unique3",
    "VecMath.C106_plane3",
    "VecMath.C106_ray3",
    "VecMath.C106_compose3",
    "VecMath.C106_rigid3",
    "VecMath.C106_cross",
    "VecMath.C106_not_like_vector2"
   ],
   "note": ""
  },
  {
   "property": "C107",
   "status": "proved",
   "theorems": [
    "VecMath.C107_cross_sign",
    "VecMath.C107_dot_sign2",
    "VecMath.C107_swap",
    "VecMath.C107_flip2",
    "VecMath.C107_flip3",
    "VecMath.C107_axis2",
    "VecMath.C107_error2",
    "VecMath.C107_side2",
    "VecMath.C107_filter2",
    "VecMath.C107_axis3",
    "VecMath.C107_error3",
    "VecMath.C107_side3",
    "VecMath.C107_filter3",
    "VecMath.C107_flat",
    "VecMath.C107_volume",
    "VecMath.C107_orientation",
    "VecMath.C107_exact_volume",
    "VecMath.C107_exact_side2",
    "VecMath.C107_exact_side3",
    "VecMath.C107_wrong_sign",
    "VecMath.C107_lost_side"
   ],
   "note": ""
  },
  {
   "property": "C108",
   "status": "proved",
   "theorems": [
    "VecMath.C108_affine2",
    "VecMath.C108_point2",
    "VecMath.C108_affine3",
    "VecMath.C108_same_linear2",
    "VecMath.C108_same_linear3",
    "VecMath.C108_w3",
    "VecMath.C108_translate2",
    "VecMath.C108_translate3",
    "VecMath.C108_moderate2",
    "VecMath.C108_moderate3",
    "VecMath.C108_overflow2",
    "VecMath.C108_lost_w"
   ],
   "note": ""
  },
  {
   "property": "C109",
   "status": "proved",
   "theorems": [
    "VecMath.C109_flip2",
    "VecMath.C109_error_reflect2",
    "VecMath.C109_error_reject2",
    "VecMath.C109_normalized2",
    "VecMath.C109_length2",
    "VecMath.C109_perp2",
    "VecMath.C109_axis_reflect2",
    "VecMath.C109_axis_twice2",
    "VecMath.C109_axis_reject2",
    "VecMath.C109_flip3",
    "VecMath.C109_error_reflect3",
    "VecMath.C109_error_reject3",
    "VecMath.C109_normalized3",
    "VecMath.C109_length3",
    "VecMath.C109_perp3",
    "VecMath.C109_axis_reflect3",
    "VecMath.C109_axis_twice3",
    "VecMath.C109_axis_reject3",
    "VecMath.C109_overflow",
    "VecMath.C109_unit2",
    "VecMath.C109_reflect2",
    "VecMath.C109_reject2",
    "VecMath.C109_unit3",
    "VecMath.C109_reflect3",
    "VecMath.C109_reject3"
   ],
   "note": ""
  },
  {
   "property": "C110",
   "status": "proved",
   "theorems": [
    "VecMath.C110_index2",
    "VecMath.C110_far2",
    "VecMath.C110_near2",
    "VecMath.C110_clear2",
    "VecMath.C110_behind2",
    "VecMath.C110_exact2",
    "VecMath.C110_kept2",
    "VecMath.C110_tree_visible2",
    "VecMath.C110_tree2",
    "VecMath.C110_index3",
    "VecMath.C110_far3",
    "VecMath.C110_near3",
    "VecMath.C110_clear3",
    "VecMath.C110_behind3",
    "VecMath.C110_exact3",
    "VecMath.C110_kept3",
    "VecMath.C110_tree_visible3",
    "VecMath.C110_tree3",
    "VecMath.C110_center_wrong2",
    "VecMath.C110_center_wrong3",
    "VecMath.C110_center2",
    "VecMath.C110_center3"
   ],
   "note": ""
  },
  {
   "property": "C111",
   "status": "proved",
   "theorems": [
    "VecMath.C111_composed2",
    "VecMath.C111_one_by_one2",
    "VecMath.C111_pivot2",
    "VecMath.C111_about2",
    "VecMath.C111_about_steps2",
    "VecMath.C111_composed3",
    "VecMath.C111_one_by_one3",
    "VecMath.C111_pivot3",
    "VecMath.C111_about3",
    "VecMath.C111_about_steps3",
    "VecMath.C111_scale2",
    "VecMath.C111_pivot_moves2",
    "VecMath.C111_scale3",
    "VecMath.C111_pivot_moves3",
    "VecMath.C111_real_about2",
    "VecMath.C111_real_fixed2",
    "VecMath.C111_real_rigid2",
    "VecMath.C111_real_laws2",
    "VecMath.C111_real_about3",
    "VecMath.C111_real_fixed3",
    "VecMath.C111_real_rigid3",
    "VecMath.C111_real_laws3"
   ],
   "note": ""
  },
  {
   "property": "C112",
   "status": "proved",
   "theorems": [
    "VecMath.C112_param2",
    "VecMath.C112_box2",
    "VecMath.C112_overflow2",
    "VecMath.C112_underflow2",
    "VecMath.C112_origin2",
    "VecMath.C112_accurate2",
    "VecMath.C112_point2",
    "VecMath.C112_param3",
    "VecMath.C112_box3",
    "VecMath.C112_overflow3",
    "VecMath.C112_underflow3",
    "VecMath.C112_origin3",
    "VecMath.C112_accurate3",
    "VecMath.C112_point3",
    "VecMath.C112_far_end2",
    "VecMath.C112_near_end2",
    "VecMath.C112_far_end3",
    "VecMath.C112_near_end3",
    "VecMath.C112_line2",
    "VecMath.C112_half2",
    "VecMath.C112_segment2",
    "VecMath.C112_line3",
    "VecMath.C112_half3",
    "VecMath.C112_segment3"
   ],
   "note": ""
  },
  {
   "property": "C113",
   "status": "proved",
   "theorems": [
    "VecMath.C113_any",
    "VecMath.C113_none",
    "VecMath.C113_grid",
    "VecMath.C113_order",
    "VecMath.C113_error",
    "VecMath.C113_clear",
    "VecMath.C113_overflow",
    "VecMath.C113_edge",
    "VecMath.C113_exact",
    "VecMath.C113_parallel"
   ],
   "note": ""
  },
  {
   "property": "C114",
   "status": "proved",
   "theorems": [
    "VecMath.C114_cross_axis",
    "VecMath.C114_cross_exact",
    "VecMath.C114_orthogonal",
    "VecMath.C114_orthogonal_axis",
    "VecMath.C114_sideways",
    "VecMath.C114_turned_length",
    "VecMath.C114_turned",
    "VecMath.C114_orthogonal_length",
    "VecMath.C114_near",
    "VecMath.C114_frame",
    "VecMath.C114_collapse",
    "VecMath.C114_exact"
   ],
   "note": ""
  },
  {
   "property": "C115",
   "status": "proved",
   "theorems": [
    "VecMath.C115_platform",
    "VecMath.C115_platform_ray2",
    "VecMath.C115_platform_ray3",
    "VecMath.C115_platform_box2",
    "VecMath.C115_platform_box3",
    "VecMath.C115_platform_lookAt",
    "VecMath.C115_platform_inverse",
    "VecMath.C115_min_zero",
    "VecMath.C115_div_zero",
    "VecMath.C115_scalar",
    "VecMath.C115_scalar_min",
    "VecMath.C115_vector2",
    "VecMath.C115_vector2_div",
    "VecMath.C115_vector2_min",
    "VecMath.C115_point2",
    "VecMath.C115_point2_div",
    "VecMath.C115_point2_min",
    "VecMath.C115_ray2",
    "VecMath.C115_boundingBox2",
    "VecMath.C115_boundingBox2_min",
    "VecMath.C115_boundingBox2_divmin",
    "VecMath.C115_matrix3x3",
    "VecMath.C115_matrix3x3_div",
    "VecMath.C115_matrix3x3_trig",
    "VecMath.C115_transform2",
    "VecMath.C115_transform2_div",
    "VecMath.C115_transform2_trig",
    "VecMath.C115_transform2_divmin",
    "VecMath.C115_vector3",
    "VecMath.C115_vector3_div",
    "VecMath.C115_vector3_min",
    "VecMath.C115_point3",
    "VecMath.C115_point3_div",
    "VecMath.C115_point3_min",
    "VecMath.C115_ray3",
    "VecMath.C115_boundingBox3",
    "VecMath.C115_boundingBox3_min",
    "VecMath.C115_boundingBox3_divmin",
    "VecMath.C115_matrix4x4",
    "VecMath.C115_matrix4x4_div",
    "VecMath.C115_matrix4x4_trig",
    "VecMath.C115_matrix4x4_axis",
    "VecMath.C115_transform3",
    "VecMath.C115_transform3_div",
    "VecMath.C115_transform3_trig",
    "VecMath.C115_transform3_divmin",
    "VecMath.C115_transform3_axis"
   ],
   "note": ""
  },
  {
   "property": "C116",
   "status": "proved",
   "theorems": [
    "VecMath.C116_eq2",
    "VecMath.C116_eq3",
    "VecMath.C116_kept",
    "VecMath.C116_normalize2",
    "VecMath.C116_normalize3",
    "VecMath.C116_inverse3x3",
    "VecMath.C116_inverse4x4",
    "VecMath.C116_tryFrom2",
    "VecMath.C116_tryFrom3",
    "VecMath.C116_lookAt",
    "VecMath.C116_rotateAxis",
    "VecMath.C116_div2",
    "VecMath.C116_div3",
    "VecMath.C116_point2",
    "VecMath.C116_point3",
    "VecMath.C116_box2",
    "VecMath.C116_box3",
    "VecMath.C116_ray2",
    "VecMath.C116_ray3",
    "VecMath.C116_ray_zero2",
    "VecMath.C116_ray_zero3",
    "VecMath.C116_scale_zero",
    "VecMath.C116_weight_zero"
   ],
   "note": ""
  },
  {
   "property": "C117",
   "status": "proved",
   "theorems": [
    "VecMath.C117_vector",
    "VecMath.C117_scale",
    "VecMath.C117_div",
    "VecMath.C117_normalize",
    "VecMath.C117_cross",
    "VecMath.C117_maxDimension",
    "VecMath.C117_point",
    "VecMath.C117_at",
    "VecMath.C117_flat",
    "VecMath.C117_section",
    "VecMath.C117_measure",
    "VecMath.C117_corner",
    "VecMath.C117_ray_box",
    "VecMath.C117_face",
    "VecMath.C117_weighted",
    "VecMath.C117_weighted_f32",
    "VecMath.C117_half_cube",
    "VecMath.C117_inverse",
    "VecMath.C117_tryFrom",
    "VecMath.C117_mul",
    "VecMath.C117_mul_vector",
    "VecMath.C117_mul_point",
    "VecMath.C117_transpose",
    "VecMath.C117_transforms",
    "VecMath.C117_chain",
    "VecMath.C117_transform_vector",
    "VecMath.C117_transform_point",
    "VecMath.C117_transform_ray",
    "VecMath.C117_transform_box",
    "VecMath.C117_real_inverse"
   ],
   "note": ""
  },
  {
   "property": "C118",
   "status": "proved",
   "theorems": [
    "VecMath.C118_error2",
    "VecMath.C118_finite2",
    "VecMath.C118_start2",
    "VecMath.C118_end2",
    "VecMath.C118_between2",
    "VecMath.C118_segment2",
    "VecMath.C118_grid2",
    "VecMath.C118_error3",
    "VecMath.C118_finite3",
    "VecMath.C118_start3",
    "VecMath.C118_end3",
    "VecMath.C118_between3",
    "VecMath.C118_segment3",
    "VecMath.C118_grid3",
    "VecMath.C118_overshoot2",
    "VecMath.C118_lost_start2",
    "VecMath.C118_overshoot3",
    "VecMath.C118_lost_start3",
    "VecMath.C118_real2",
    "VecMath.C118_real_inside2",
    "VecMath.C118_real_transform2",
    "VecMath.C118_real_split2",
    "VecMath.C118_real_reverse2",
    "VecMath.C118_real3",
    "VecMath.C118_real_inside3",
    "VecMath.C118_real_transform3",
    "VecMath.C118_real_split3",
    "VecMath.C118_real_reverse3"
   ],
   "note": ""
  },
  {
   "property": "C119",
   "status": "proved",
   "theorems": [
    "VecMath.C119_ordered2",
    "VecMath.C119_back2",
    "VecMath.C119_radius2",
    "VecMath.C119_grow2",
    "VecMath.C119_inside2",
    "VecMath.C119_outside2",
    "VecMath.C119_whole2",
    "VecMath.C119_ordered3",
    "VecMath.C119_back3",
    "VecMath.C119_radius3",
    "VecMath.C119_grow3",
    "VecMath.C119_inside3",
    "VecMath.C119_outside3",
    "VecMath.C119_whole3",
    "VecMath.C119_disc2",
    "VecMath.C119_clear2",
    "VecMath.C119_near2",
    "VecMath.C119_disc3",
    "VecMath.C119_clear3",
    "VecMath.C119_near3",
    "VecMath.C119_miss",
    "VecMath.C119_box_lost",
    "VecMath.C119_exact2",
    "VecMath.C119_on2",
    "VecMath.C119_motion2",
    "VecMath.C119_box2",
    "VecMath.C119_box_hit2",
    "VecMath.C119_exact3",
    "VecMath.C119_on3",
    "VecMath.C119_motion3",
    "VecMath.C119_box3",
    "VecMath.C119_box_hit3"
   ],
   "note": ""
  },
  {
   "property": "C120",
   "status": "proved",
   "theorems": [
    "VecMath.C120_negate2",
    "VecMath.C120_clip2",
    "VecMath.C120_behind2",
    "VecMath.C120_error2",
    "VecMath.C120_negate3",
    "VecMath.C120_clip3",
    "VecMath.C120_behind3",
    "VecMath.C120_error3",
    "VecMath.C120_ray_wrong2",
    "VecMath.C120_behind_seen2",
    "VecMath.C120_ray_wrong3",
    "VecMath.C120_behind_seen3",
    "VecMath.C120_line2",
    "VecMath.C120_segment2",
    "VecMath.C120_order2",
    "VecMath.C120_scale2",
    "VecMath.C120_box2",
    "VecMath.C120_line3",
    "VecMath.C120_segment3",
    "VecMath.C120_order3",
    "VecMath.C120_scale3",
    "VecMath.C120_box3",
    "VecMath.C120_ray_iff2",
    "VecMath.C120_ray_iff3"
   ],
   "note": ""
  },
  {
   "property": "C121",
   "status": "proved",
   "theorems": [
    "VecMath.C121_half_misses2",
    "VecMath.C121_overlap_lost2",
    "VecMath.C121_half_misses3",
    "VecMath.C121_overlap_lost3",
    "VecMath.C121_corner2",
    "VecMath.C121_points2",
    "VecMath.C121_symm2",
    "VecMath.C121_grow2",
    "VecMath.C121_corner3",
    "VecMath.C121_points3",
    "VecMath.C121_symm3",
    "VecMath.C121_grow3",
    "VecMath.C121_meets_iff2",
    "VecMath.C121_within_iff2",
    "VecMath.C121_join2",
    "VecMath.C121_half2",
    "VecMath.C121_motion2",
    "VecMath.C121_meets_iff3",
    "VecMath.C121_within_iff3",
    "VecMath.C121_join3",
    "VecMath.C121_half3",
    "VecMath.C121_motion3"
   ],
   "note": ""
  },
  {
   "property": "C122",
   "status": "proved",
   "theorems": [
    "VecMath.C122_grow2",
    "VecMath.C122_back_legs2",
    "VecMath.C122_error2",
    "VecMath.C122_float_direct2",
    "VecMath.C122_exact2",
    "VecMath.C122_grow3",
    "VecMath.C122_back_legs3",
    "VecMath.C122_error3",
    "VecMath.C122_float_direct3",
    "VecMath.C122_exact3",
    "VecMath.C122_shorter2",
    "VecMath.C122_back_differs2",
    "VecMath.C122_detour2",
    "VecMath.C122_shorter3",
    "VecMath.C122_back_differs3",
    "VecMath.C122_detour3",
    "VecMath.C122_direct2",
    "VecMath.C122_insert2",
    "VecMath.C122_split2",
    "VecMath.C122_reverse2",
    "VecMath.C122_motion2",
    "VecMath.C122_direct3",
    "VecMath.C122_insert3",
    "VecMath.C122_split3",
    "VecMath.C122_reverse3",
    "VecMath.C122_motion3"
   ],
   "note": ""
  },
  {
   "property": "C123",
   "status": "proved",
   "theorems": [
    "VecMath.C123_unchanged2",
    "VecMath.C123_arrive2",
    "VecMath.C123_shrink2",
    "VecMath.C123_length2",
    "VecMath.C123_between2",
    "VecMath.C123_unchanged3",
    "VecMath.C123_arrive3",
    "VecMath.C123_shrink3",
    "VecMath.C123_length3",
    "VecMath.C123_between3",
    "VecMath.C123_exact_limit2",
    "VecMath.C123_exact_step2",
    "VecMath.C123_exact_walk2",
    "VecMath.C123_exact_limit3",
    "VecMath.C123_exact_step3",
    "VecMath.C123_exact_walk3",
    "VecMath.C123_huge2",
    "VecMath.C123_huge3",
    "VecMath.C123_not_idempotent2",
    "VecMath.C123_stuck2",
    "VecMath.C123_not_idempotent3",
    "VecMath.C123_stuck3"
   ],
   "note": ""
  },
  {
   "property": "C124",
   "status": "proved",
   "theorems": [
    "VecMath.C124_far",
    "VecMath.C124_first_vertex",
    "VecMath.C124_small2",
    "VecMath.C124_small3",
    "VecMath.C124_pentagon",
    "VecMath.C124_error2",
    "VecMath.C124_exact2",
    "VecMath.C124_grid2",
    "VecMath.C124_repeat2",
    "VecMath.C124_close2",
    "VecMath.C124_flip2",
    "VecMath.C124_box2",
    "VecMath.C124_error3",
    "VecMath.C124_exact3",
    "VecMath.C124_repeat3",
    "VecMath.C124_close3",
    "VecMath.C124_grid3",
    "VecMath.C124_anywhere2",
    "VecMath.C124_turn2",
    "VecMath.C124_reverse2",
    "VecMath.C124_split2",
    "VecMath.C124_move2",
    "VecMath.C124_affine2",
    "VecMath.C124_anywhere3",
    "VecMath.C124_turn3",
    "VecMath.C124_reverse3",
    "VecMath.C124_split3",
    "VecMath.C124_move3",
    "VecMath.C124_affine3",
    "VecMath.C124_plane"
   ],
   "note": ""
  },
  {
   "property": "C125",
   "status": "proved",
   "theorems": [
    "VecMath.C125_iff2",
    "VecMath.C125_symm2",
    "VecMath.C125_members2",
    "VecMath.C125_fewer2",
    "VecMath.C125_boxes2",
    "VecMath.C125_negate2",
    "VecMath.C125_sound2",
    "VecMath.C125_found2",
    "VecMath.C125_exact2",
    "VecMath.C125_iff3",
    "VecMath.C125_symm3",
    "VecMath.C125_members3",
    "VecMath.C125_fewer3",
    "VecMath.C125_boxes3",
    "VecMath.C125_negate3",
    "VecMath.C125_sound3",
    "VecMath.C125_found3",
    "VecMath.C125_exact3",
    "VecMath.C125_edges2",
    "VecMath.C125_edges3",
    "VecMath.C125_hulls2",
    "VecMath.C125_axis2",
    "VecMath.C125_hulls3",
    "VecMath.C125_axis3",
    "VecMath.C125_between",
    "VecMath.C125_missed",
    "VecMath.C125_triangle",
    "VecMath.C125_triangle_grid"
   ],
   "note": ""
  },
  {
   "property": "C126",
   "status": "proved",
   "theorems": [
    "VecMath.C126_outside",
    "VecMath.C126_keep2",
    "VecMath.C126_mem2",
    "VecMath.C126_all2",
    "VecMath.C126_none2",
    "VecMath.C126_edge2",
    "VecMath.C126_keep3",
    "VecMath.C126_mem3",
    "VecMath.C126_all3",
    "VecMath.C126_none3",
    "VecMath.C126_edge3",
    "VecMath.C126_parameter2",
    "VecMath.C126_between2",
    "VecMath.C126_box2",
    "VecMath.C126_parameter3",
    "VecMath.C126_between3",
    "VecMath.C126_box3",
    "VecMath.C126_exact2",
    "VecMath.C126_exact3",
    "VecMath.C126_near2",
    "VecMath.C126_near3",
    "VecMath.C126_crossing2",
    "VecMath.C126_clip2",
    "VecMath.C126_clips2",
    "VecMath.C126_empty2",
    "VecMath.C126_order2",
    "VecMath.C126_crossing3",
    "VecMath.C126_clip3",
    "VecMath.C126_clips3",
    "VecMath.C126_empty3",
    "VecMath.C126_order3"
   ],
   "note": ""
  },
  {
   "property": "C127",
   "status": "proved",
   "theorems": [
    "VecMath.C127_stay2",
    "VecMath.C127_least2",
    "VecMath.C127_sphere2",
    "VecMath.C127_forward2",
    "VecMath.C127_stay3",
    "VecMath.C127_least3",
    "VecMath.C127_sphere3",
    "VecMath.C127_forward3",
    "VecMath.C127_through",
    "VecMath.C127_safe2",
    "VecMath.C127_stop2",
    "VecMath.C127_hit2",
    "VecMath.C127_miss2",
    "VecMath.C127_loop2",
    "VecMath.C127_safe3",
    "VecMath.C127_stop3",
    "VecMath.C127_hit3",
    "VecMath.C127_miss3",
    "VecMath.C127_loop3"
   ],
   "note": ""
  },
  {
   "property": "C128",
   "status": "proved",
   "theorems": [
    "VecMath.C128_back",
    "VecMath.C128_corner",
    "VecMath.C128_exact",
    "VecMath.C128_grid",
    "VecMath.C128_error",
    "VecMath.C128_leak",
    "VecMath.C128_anywhere",
    "VecMath.C128_move",
    "VecMath.C128_affine",
    "VecMath.C128_order",
    "VecMath.C128_glue",
    "VecMath.C128_surface",
    "VecMath.C128_box"
   ],
   "note": ""
  },
  {
   "property": "C129",
   "status": "proved",
   "theorems": [
    "VecMath.C129_mirror2",
    "VecMath.C129_mirror_swing2",
    "VecMath.C129_terminal2",
    "VecMath.C129_rest2",
    "VecMath.C129_forward2",
    "VecMath.C129_mirror3",
    "VecMath.C129_mirror_swing3",
    "VecMath.C129_terminal3",
    "VecMath.C129_rest3",
    "VecMath.C129_forward3",
    "VecMath.C129_stall",
    "VecMath.C129_exact2",
    "VecMath.C129_exact_back2",
    "VecMath.C129_exact3",
    "VecMath.C129_exact_back3",
    "VecMath.C129_orbit2",
    "VecMath.C129_orbit3",
    "VecMath.C129_parabola2",
    "VecMath.C129_rise2",
    "VecMath.C129_swingBack2",
    "VecMath.C129_energy2",
    "VecMath.C129_bounded2",
    "VecMath.C129_grows2",
    "VecMath.C129_unbounded2",
    "VecMath.C129_parabola3",
    "VecMath.C129_rise3",
    "VecMath.C129_swingBack3",
    "VecMath.C129_energy3",
    "VecMath.C129_bounded3",
    "VecMath.C129_grows3",
    "VecMath.C129_unbounded3"
   ],
   "note": ""
  }
 ]
}
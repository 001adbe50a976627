{
 "claims": [
  {
   "property": "C01",
   "status": "proved",
   "theorems": [
    "SkSpatial.C01_point_vector_ok_iff",
    "SkSpatial.C01_point_vector_error"
   ],
   "note": ""
  },
  {
   "property": "C02",
   "status": "proved",
   "theorems": [
    "SkSpatial.C02_points_ok_iff",
    "SkSpatial.C02_points_error"
   ],
   "note": ""
  },
  {
   "property": "C03",
   "status": "proved",
   "theorems": [
    "SkSpatial.C03_set_dimension",
    "SkSpatial.C03_set_dimension_laws",
    "SkSpatial.C03_set_dimension_points"
   ],
   "note": ""
  },
  {
   "property": "C04",
   "status": "proved",
   "theorems": [
    "SkSpatial.C04_line_constructor",
    "SkSpatial.C04_plane_constructor"
   ],
   "note": ""
  },
  {
   "property": "C05",
   "status": "proved",
   "theorems": [
    "SkSpatial.C05_circle_constructor",
    "SkSpatial.C05_sphere_constructor",
    "SkSpatial.C05_nan_radius_accepted",
    "SkSpatial.C05_cylinder_constructor"
   ],
   "note": ""
  },
  {
   "property": "C06",
   "status": "proved",
   "theorems": [
    "SkSpatial.C06_distance_point_metric",
    "SkSpatial.C06_distance_point_mismatch"
   ],
   "note": ""
  },
  {
   "property": "C07",
   "status": "proved",
   "theorems": [
    "SkSpatial.C07_unit"
   ],
   "note": ""
  },
  {
   "property": "C08",
   "status": "proved",
   "theorems": [
    "SkSpatial.C08_is_zero"
   ],
   "note": ""
  },
  {
   "property": "C09",
   "status": "proved",
   "theorems": [
    "SkSpatial.C09_cross",
    "SkSpatial.C09_cross_dimension"
   ],
   "note": ""
  },
  {
   "property": "C10",
   "status": "proved",
   "theorems": [
    "SkSpatial.C10_cosine_similarity_any_rounding",
    "SkSpatial.C10_sane_for_every_rounding",
    "SkSpatial.C10_cosine_similarity_range",
    "SkSpatial.C10_cosine_similarity_exact"
   ],
   "note": ""
  },
  {
   "property": "C11",
   "status": "proved",
   "theorems": [
    "SkSpatial.C11_angle_between"
   ],
   "note": ""
  },
  {
   "property": "C12",
   "status": "proved",
   "theorems": [
    "SkSpatial.C12_angle_signed",
    "SkSpatial.C12_angle_signed_zero",
    "SkSpatial.C12_angle_signed_dimension"
   ],
   "note": ""
  },
  {
   "property": "C13",
   "status": "proved",
   "theorems": [
    "SkSpatial.C13_angle_signed_3d",
    "SkSpatial.C13_angle_signed_3d_accepts",
    "SkSpatial.C13_angle_signed_3d_dimension"
   ],
   "note": ""
  },
  {
   "property": "C14",
   "status": "proved",
   "theorems": [
    "SkSpatial.C14_is_perpendicular",
    "SkSpatial.C14_is_parallel",
    "SkSpatial.C14_extreme_tolerances",
    "SkSpatial.C14_is_parallel_tol",
    "SkSpatial.C14_is_parallel_not_transitive"
   ],
   "note": ""
  },
  {
   "property": "C15",
   "status": "proved",
   "theorems": [
    "SkSpatial.C15_side_vector",
    "SkSpatial.C15_side_vector_dimension"
   ],
   "note": ""
  },
  {
   "property": "C16",
   "status": "proved",
   "theorems": [
    "SkSpatial.C16_project_vector",
    "SkSpatial.C16_project_vector_zero"
   ],
   "note": ""
  },
  {
   "property": "C17",
   "status": "proved",
   "theorems": [
    "SkSpatial.C17_different_direction",
    "SkSpatial.C17_different_direction_1d",
    "SkSpatial.C17_different_direction_zero",
    "SkSpatial.C17_different_direction_tol"
   ],
   "note": ""
  },
  {
   "property": "C18",
   "status": "proved",
   "theorems": [
    "SkSpatial.C18_unique"
   ],
   "note": ""
  },
  {
   "property": "C19",
   "status": "proved",
   "theorems": [
    "SkSpatial.C19_centroid",
    "SkSpatial.C19_mean_center"
   ],
   "note": ""
  },
  {
   "property": "C20",
   "status": "proved",
   "theorems": [
    "SkSpatial.C20_normalize_distance",
    "SkSpatial.C20_normalize_distance_zero"
   ],
   "note": ""
  },
  {
   "property": "C21",
   "status": "proved",
   "theorems": [
    "SkSpatial.C21_affine_rank",
    "SkSpatial.C21_affine_rank_laws",
    "SkSpatial.C21_affine_rank_default"
   ],
   "note": ""
  },
  {
   "property": "C22",
   "status": "proved",
   "theorems": [
    "SkSpatial.C22_exact",
    "SkSpatial.C22_predicates"
   ],
   "note": ""
  },
  {
   "property": "C23",
   "status": "proved",
   "theorems": [
    "SkSpatial.C23_from_points",
    "SkSpatial.C23_from_slope",
    "SkSpatial.C23_to_point"
   ],
   "note": ""
  },
  {
   "property": "C24",
   "status": "proved",
   "theorems": [
    "SkSpatial.C24_project_point"
   ],
   "note": ""
  },
  {
   "property": "C25",
   "status": "proved",
   "theorems": [
    "SkSpatial.C25_batch"
   ],
   "note": ""
  },
  {
   "property": "C26",
   "status": "proved",
   "theorems": [
    "SkSpatial.C26_side_point"
   ],
   "note": ""
  },
  {
   "property": "C27",
   "status": "proved",
   "theorems": [
    "SkSpatial.C27_distance_line_parallel",
    "SkSpatial.C27_distance_line_skew",
    "SkSpatial.C27_nearly_parallel_defect"
   ],
   "note": ""
  },
  {
   "property": "C28",
   "status": "proved",
   "theorems": [
    "SkSpatial.C28_intersect_line_complete",
    "SkSpatial.C28_intersect_line_sound",
    "SkSpatial.C28_intersect_line_errors"
   ],
   "note": ""
  },
  {
   "property": "C29",
   "status": "proved",
   "theorems": [
    "SkSpatial.C29_intersect_line_unchecked"
   ],
   "note": ""
  },
  {
   "property": "C30",
   "status": "proved",
   "theorems": [
    "SkSpatial.C30_line_is_close",
    "SkSpatial.C30_plane_is_close"
   ],
   "note": ""
  },
  {
   "property": "C31",
   "status": "proved",
   "theorems": [
    "SkSpatial.C31_line_best_fit"
   ],
   "note": ""
  },
  {
   "property": "C32",
   "status": "proved",
   "theorems": [
    "SkSpatial.C32_transform_points",
    "SkSpatial.C32_transform_coordinates"
   ],
   "note": ""
  },
  {
   "property": "C33",
   "status": "proved",
   "theorems": [
    "SkSpatial.C33_from_vectors",
    "SkSpatial.C33_from_vectors_default",
    "SkSpatial.C33_from_points"
   ],
   "note": ""
  },
  {
   "property": "C34",
   "status": "proved",
   "theorems": [
    "SkSpatial.C34_cartesian"
   ],
   "note": ""
  },
  {
   "property": "C35",
   "status": "proved",
   "theorems": [
    "SkSpatial.C35_project_point"
   ],
   "note": ""
  },
  {
   "property": "C36",
   "status": "proved",
   "theorems": [
    "SkSpatial.C36_batch"
   ],
   "note": ""
  },
  {
   "property": "C37",
   "status": "proved",
   "theorems": [
    "SkSpatial.C37_project_vector",
    "SkSpatial.C37_project_line",
    "SkSpatial.C37_project_line_tolerance"
   ],
   "note": ""
  },
  {
   "property": "C38",
   "status": "proved",
   "theorems": [
    "SkSpatial.C38_intersect_line"
   ],
   "note": ""
  },
  {
   "property": "C39",
   "status": "proved",
   "theorems": [
    "SkSpatial.C39_intersect_plane",
    "SkSpatial.C39_intersect_plane_dimension"
   ],
   "note": ""
  },
  {
   "property": "C40",
   "status": "proved",
   "theorems": [
    "SkSpatial.C40_plane_best_fit",
    "SkSpatial.C40_plane_best_fit_dimension"
   ],
   "note": ""
  },
  {
   "property": "C41",
   "status": "proved",
   "theorems": [
    "SkSpatial.C41_to_points"
   ],
   "note": ""
  },
  {
   "property": "C42",
   "status": "proved",
   "theorems": [
    "SkSpatial.C42_circle",
    "SkSpatial.C42_sphere"
   ],
   "note": ""
  },
  {
   "property": "C43",
   "status": "proved",
   "theorems": [
    "SkSpatial.C43_from_points",
    "SkSpatial.C43_from_points_dimension"
   ],
   "note": ""
  },
  {
   "property": "C44",
   "status": "proved",
   "theorems": [
    "SkSpatial.C44_intersect_circle"
   ],
   "note": ""
  },
  {
   "property": "C45",
   "status": "proved",
   "theorems": [
    "SkSpatial.C45_circle_intersect_line"
   ],
   "note": ""
  },
  {
   "property": "C46",
   "status": "proved",
   "theorems": [
    "SkSpatial.C46_sphere_intersect_line"
   ],
   "note": ""
  },
  {
   "property": "C47",
   "status": "proved",
   "theorems": [
    "SkSpatial.C47_circle_best_fit",
    "SkSpatial.C47_sphere_best_fit",
    "SkSpatial.C47_far_from_origin_defect"
   ],
   "note": ""
  },
  {
   "property": "C48",
   "status": "proved",
   "theorems": [
    "SkSpatial.C48_sphere_mesh"
   ],
   "note": ""
  },
  {
   "property": "C49",
   "status": "proved",
   "theorems": [
    "SkSpatial.C49_circle",
    "SkSpatial.C49_sphere",
    "SkSpatial.C49_cylinder"
   ],
   "note": ""
  },
  {
   "property": "C50",
   "status": "proved",
   "theorems": [
    "SkSpatial.C50_is_point_within"
   ],
   "note": ""
  },
  {
   "property": "C51",
   "status": "proved",
   "theorems": [
    "SkSpatial.C51_infinite_cylinder",
    "SkSpatial.C51_dimension"
   ],
   "note": ""
  },
  {
   "property": "C52",
   "status": "proved",
   "theorems": [
    "SkSpatial.C52_finite_cylinder"
   ],
   "note": ""
  },
  {
   "property": "C53",
   "status": "proved",
   "theorems": [
    "SkSpatial.C53_solve_quadratic",
    "SkSpatial.C53_solve_quadratic_digits"
   ],
   "note": ""
  },
  {
   "property": "C54",
   "status": "proved",
   "theorems": [
    "SkSpatial.C54_mesh"
   ],
   "note": ""
  },
  {
   "property": "C55",
   "status": "proved",
   "theorems": [
    "SkSpatial.C55_best_fit",
    "SkSpatial.C55_exact_data",
    "SkSpatial.C55_errors",
    "SkSpatial.C55_length_defect",
    "SkSpatial.C55_length_defect_occurs",
    "SkSpatial.C55_spherical_round_trip",
    "SkSpatial.C55_spherical_defect"
   ],
   "note": ""
  },
  {
   "property": "C56",
   "status": "proved",
   "theorems": [
    "SkSpatial.C56_area",
    "SkSpatial.C56_area_dimension",
    "SkSpatial.C56_perimeter"
   ],
   "note": ""
  },
  {
   "property": "C57",
   "status": "proved",
   "theorems": [
    "SkSpatial.C57_names"
   ],
   "note": ""
  },
  {
   "property": "C58",
   "status": "proved",
   "theorems": [
    "SkSpatial.C58_angle_sum"
   ],
   "note": ""
  },
  {
   "property": "C59",
   "status": "proved",
   "theorems": [
    "SkSpatial.C59_altitude",
    "SkSpatial.C59_orthocenter",
    "SkSpatial.C59_thin_triangle_raises"
   ],
   "note": ""
  },
  {
   "property": "C60",
   "status": "proved",
   "theorems": [
    "SkSpatial.C60_classify_exact",
    "SkSpatial.C60_classify_order",
    "SkSpatial.C60_classify_tolerance",
    "SkSpatial.C60_two_close_pairs_are_scalene"
   ],
   "note": ""
  },
  {
   "property": "C61",
   "status": "proved",
   "theorems": [
    "SkSpatial.C61_is_right",
    "SkSpatial.C61_is_right_tolerance"
   ],
   "note": ""
  },
  {
   "property": "C62",
   "status": "proved",
   "theorems": [
    "SkSpatial.C62_constructor",
    "SkSpatial.C62_dimension",
    "SkSpatial.C62_order",
    "SkSpatial.C62_centroid"
   ],
   "note": ""
  },
  {
   "property": "C63",
   "status": "proved",
   "theorems": [
    "SkSpatial.C63_constructor",
    "SkSpatial.C63_symmetric",
    "SkSpatial.C63_distinct_endpoints_rejected",
    "SkSpatial.C63_dimension",
    "SkSpatial.C63_mixed_dimension_accepted"
   ],
   "note": ""
  },
  {
   "property": "C64",
   "status": "proved",
   "theorems": [
    "SkSpatial.C64_contains_point",
    "SkSpatial.C64_contains_point_default",
    "SkSpatial.C64_accepted_near",
    "SkSpatial.C64_accepts_points_off_the_segment"
   ],
   "note": ""
  },
  {
   "property": "C65",
   "status": "proved",
   "theorems": [
    "SkSpatial.C65_intersect_complete",
    "SkSpatial.C65_intersect_sound",
    "SkSpatial.C65_intersect_errors",
    "SkSpatial.C65_intersect_symmetric"
   ],
   "note": ""
  },
  {
   "property": "C66",
   "status": "proved",
   "theorems": [
    "SkSpatial.C66_area_triangle",
    "SkSpatial.C66_area_triangle_base_height",
    "SkSpatial.C66_area_triangle_measure",
    "SkSpatial.C66_volume_tetrahedron",
    "SkSpatial.C66_volume_tetrahedron_measure",
    "SkSpatial.C66_dimension"
   ],
   "note": ""
  },
  {
   "property": "C67",
   "status": "proved",
   "theorems": [
    "SkSpatial.C67_shoelace",
    "SkSpatial.C67_area_signed_laws",
    "SkSpatial.C67_diagonal",
    "SkSpatial.C67_triangle",
    "SkSpatial.C67_fan",
    "SkSpatial.C67_errors"
   ],
   "note": ""
  },
  {
   "property": "C68",
   "status": "proved",
   "theorems": [
    "SkSpatial.Mem.C68_frame",
    "SkSpatial.Mem.C68_frame_forever",
    "SkSpatial.Mem.C68_shape_forever",
    "SkSpatial.Mem.C68_round_in_place",
    "SkSpatial.Mem.C68_round_points_numpy1",
    "SkSpatial.Mem.C68_round_value",
    "SkSpatial.Mem.C68_fill",
    "SkSpatial.Mem.C68_iadd",
    "SkSpatial.Mem.C68_point_aliases",
    "SkSpatial.Mem.C68_row_is_view",
    "SkSpatial.Mem.C68_slice_is_view",
    "SkSpatial.Mem.C68_slice2_is_view",
    "SkSpatial.Mem.C68_write_row_only",
    "SkSpatial.Mem.C68_write_slice_only",
    "SkSpatial.Mem.C68_set_item",
    "SkSpatial.Mem.C68_fields_alias",
    "SkSpatial.Mem.C68_attribute_is_field",
    "SkSpatial.Mem.C68_copy_is_fresh",
    "SkSpatial.Mem.C68_copy_values",
    "SkSpatial.Mem.C68_validation_bypass_defect",
    "SkSpatial.Mem.C68_rounding_an_attribute"
   ],
   "note": ""
  },
  {
   "property": "C69",
   "status": "proved",
   "theorems": [
    "SkSpatial.C69_array_wrap"
   ],
   "note": ""
  },
  {
   "property": "C70",
   "status": "proved",
   "theorems": [
    "SkSpatial.C70_dispatch",
    "SkSpatial.C70_segment_defect",
    "SkSpatial.C70_by_class"
   ],
   "note": ""
  },
  {
   "property": "C71",
   "status": "proved",
   "theorems": [
    "SkSpatial.C71_is_close",
    "SkSpatial.C71_is_close_laws",
    "SkSpatial.C71_is_equal",
    "SkSpatial.C71_negative_tolerance"
   ],
   "note": ""
  },
  {
   "property": "C72",
   "status": "proved",
   "theorems": [
    "SkSpatial.C72_points_vectors",
    "SkSpatial.C72_line",
    "SkSpatial.C72_circle_segment",
    "SkSpatial.C72_triangle",
    "SkSpatial.C72_surfaces",
    "SkSpatial.C72_axes3d",
    "SkSpatial.C72_plot_all",
    "SkSpatial.C72_projection",
    "SkSpatial.C72_defaults"
   ],
   "note": ""
  },
  {
   "property": "C73",
   "status": "proved",
   "theorems": [
    "SkSpatial.C73_norm_error",
    "SkSpatial.C73_distance_error",
    "SkSpatial.C73_is_zero",
    "SkSpatial.C73_constructors",
    "SkSpatial.C73_underflow_defect"
   ],
   "note": ""
  },
  {
   "property": "C74",
   "status": "proved",
   "theorems": [
    "SkSpatial.C74_symmetric",
    "SkSpatial.C74_distance_symmetric",
    "SkSpatial.C74_cross_anticomm"
   ],
   "note": ""
  },
  {
   "property": "C75",
   "status": "proved",
   "theorems": [
    "SkSpatial.C75_side_never_wrong",
    "SkSpatial.C75_side_zero_only_if_close"
   ],
   "note": ""
  },
  {
   "property": "C76",
   "status": "proved",
   "theorems": [
    "SkSpatial.C76_unit_error"
   ],
   "note": ""
  },
  {
   "property": "C77",
   "status": "proved",
   "theorems": [
    "SkSpatial.C77_cosine_error",
    "SkSpatial.C77_is_parallel"
   ],
   "note": ""
  },
  {
   "property": "C78",
   "status": "proved",
   "theorems": [
    "SkSpatial.C78_plane_distance",
    "SkSpatial.C78_line_project",
    "SkSpatial.C78_line_distance",
    "SkSpatial.C78_sphere_distance"
   ],
   "note": ""
  },
  {
   "property": "C79",
   "status": "proved",
   "theorems": [
    "SkSpatial.C79_line_contains",
    "SkSpatial.C79_plane_contains",
    "SkSpatial.C79_sphere_contains"
   ],
   "note": ""
  },
  {
   "property": "C80",
   "status": "proved",
   "theorems": [
    "SkSpatial.C80_classify",
    "SkSpatial.C80_is_right"
   ],
   "note": ""
  },
  {
   "property": "C81",
   "status": "proved",
   "theorems": [
    "SkSpatial.C81_contains_point",
    "SkSpatial.C81_constructor"
   ],
   "note": ""
  },
  {
   "property": "C82",
   "status": "proved",
   "theorems": [
    "SkSpatial.C82_lp",
    "SkSpatial.C82_euclidean",
    "SkSpatial.C82_one_zero",
    "SkSpatial.C82_inf",
    "SkSpatial.C82_is_norm",
    "SkSpatial.C82_order"
   ],
   "note": ""
  },
  {
   "property": "C83",
   "status": "proved",
   "theorems": [
    "SkSpatial.C83_is_zero",
    "SkSpatial.C83_is_zero_exact",
    "SkSpatial.C83_constructors",
    "SkSpatial.C83_norm",
    "SkSpatial.C83_defect"
   ],
   "note": ""
  },
  {
   "property": "C84",
   "status": "proved",
   "theorems": [
    "SkSpatial.C84_dot",
    "SkSpatial.C84_is_perpendicular",
    "SkSpatial.C84_angle",
    "SkSpatial.C84_is_parallel",
    "SkSpatial.C84_defect",
    "SkSpatial.C84_angle_signed"
   ],
   "note": ""
  },
  {
   "property": "C85",
   "status": "proved",
   "theorems": [
    "SkSpatial.C85_distance_point",
    "SkSpatial.C85_distance_defect",
    "SkSpatial.C85_cross",
    "SkSpatial.C85_side_vector",
    "SkSpatial.C85_side_defect",
    "SkSpatial.C85_area_triangle",
    "SkSpatial.C85_area_defect",
    "SkSpatial.C85_volume_defect",
    "SkSpatial.C85_line_project",
    "SkSpatial.C85_plane_distance",
    "SkSpatial.C85_area_signed",
    "SkSpatial.C85_area_signed_defect"
   ],
   "note": ""
  },
  {
   "property": "C86",
   "status": "proved",
   "theorems": [
    "SkSpatial.C86_repr_begins_with_class",
    "SkSpatial.C86_repr_unique",
    "SkSpatial.C86_repr_injective",
    "SkSpatial.C86_repr_integers"
   ],
   "note": ""
  },
  {
   "property": "C87",
   "status": "proved",
   "theorems": [
    "SkSpatial.Mem.C87_method_result",
    "SkSpatial.Mem.C87_method_raises",
    "SkSpatial.Mem.C87_line_from_points",
    "SkSpatial.Mem.C87_line_from_points_second",
    "SkSpatial.Mem.C87_line_from_points_first",
    "SkSpatial.Mem.C87_project_line",
    "SkSpatial.Mem.C87_project_line_raises",
    "SkSpatial.Mem.C87_project_line_defect",
    "SkSpatial.Mem.C87_triangle_line"
   ],
   "note": ""
  },
  {
   "property": "C88",
   "status": "proved",
   "theorems": [
    "SkSpatial.C88_line_projection_not_contained",
    "SkSpatial.C88_plane_projection_not_contained",
    "SkSpatial.C88_circle_projection_not_contained",
    "SkSpatial.C88_triangle_angle_raises",
    "SkSpatial.C88_cylinder_misses_cap_centre"
   ],
   "note": ""
  },
  {
   "property": "C89",
   "status": "proved",
   "theorems": [
    "SkSpatial.C89_line",
    "SkSpatial.C89_plane",
    "SkSpatial.C89_circle",
    "SkSpatial.C89_sphere"
   ],
   "note": ""
  },
  {
   "property": "C90",
   "status": "proved",
   "theorems": [
    "SkSpatial.C90_angle_between",
    "SkSpatial.C90_triangle_angle"
   ],
   "note": ""
  },
  {
   "property": "C91",
   "status": "proved",
   "theorems": [
    "SkSpatial.C91_area_signed",
    "SkSpatial.C91_centroid",
    "SkSpatial.C91_cross",
    "SkSpatial.C91_area_triangle",
    "SkSpatial.C91_volume_tetrahedron"
   ],
   "note": ""
  },
  {
   "property": "C92",
   "status": "proved",
   "theorems": [
    "SkSpatial.C92_perimeter",
    "SkSpatial.C92_circle",
    "SkSpatial.C92_sphere",
    "SkSpatial.C92_cylinder"
   ],
   "note": ""
  },
  {
   "property": "C93",
   "status": "proved",
   "theorems": [
    "SkSpatial.C93_is_point_within"
   ],
   "note": ""
  },
  {
   "property": "C94",
   "status": "proved",
   "theorems": [
    "SkSpatial.C94_plane_intersect_line"
   ],
   "note": ""
  },
  {
   "property": "C95",
   "status": "proved",
   "theorems": [
    "SkSpatial.C95_project_vector",
    "SkSpatial.C95_scalar_projection",
    "SkSpatial.C95_transform_coordinates",
    "SkSpatial.C95_transform_points",
    "SkSpatial.C95_normalize_distance"
   ],
   "note": ""
  },
  {
   "property": "C96",
   "status": "proved",
   "theorems": [
    "SkSpatial.C96_vector",
    "SkSpatial.C96_angles",
    "SkSpatial.C96_constructors",
    "SkSpatial.C96_line",
    "SkSpatial.C96_plane",
    "SkSpatial.C96_plane_intersect_line",
    "SkSpatial.C96_sphere",
    "SkSpatial.C96_circle",
    "SkSpatial.C96_sphere_intersect_line",
    "SkSpatial.C96_cylinder",
    "SkSpatial.C96_measure",
    "SkSpatial.C96_solids",
    "SkSpatial.C96_errors",
    "SkSpatial.C96_is_point_within",
    "SkSpatial.C96_side"
   ],
   "note": ""
  },
  {
   "property": "C97",
   "status": "proved",
   "theorems": [
    "SkSpatial.C97_vector_overflow",
    "SkSpatial.C97_constructors_accept",
    "SkSpatial.C97_plane_contains_everything",
    "SkSpatial.C97_line_projects_to_its_point",
    "SkSpatial.C97_vector_underflow",
    "SkSpatial.C97_line_attribute_error"
   ],
   "note": ""
  },
  {
   "property": "C98",
   "status": "proved",
   "theorems": [
    "SkSpatial.C98_any_order",
    "SkSpatial.C98_orders_agree",
    "SkSpatial.C98_is_perpendicular_order_defect"
   ],
   "note": ""
  },
  {
   "property": "C99",
   "status": "proved",
   "theorems": [
    "SkSpatial.C99_dot",
    "SkSpatial.C99_angle_signed_3d",
    "SkSpatial.C99_is_parallel",
    "SkSpatial.C99_points",
    "SkSpatial.C99_constructors",
    "SkSpatial.C99_line_point",
    "SkSpatial.C99_plane_point",
    "SkSpatial.C99_lines",
    "SkSpatial.C99_plane_line",
    "SkSpatial.C99_planes",
    "SkSpatial.C99_circle_sphere",
    "SkSpatial.C99_cylinder",
    "SkSpatial.C99_ragged",
    "SkSpatial.C99_broadcast",
    "SkSpatial.C99_circle_line_1d"
   ],
   "note": ""
  },
  {
   "property": "C100",
   "status": "proved",
   "theorems": [
    "SkSpatial.C100_vector",
    "SkSpatial.C100_points",
    "SkSpatial.C100_line",
    "SkSpatial.C100_plane",
    "SkSpatial.C100_circle",
    "SkSpatial.C100_sphere",
    "SkSpatial.C100_cylinder",
    "SkSpatial.C100_attribute",
    "SkSpatial.C100_no_attribute",
    "SkSpatial.C100_distance_point_attribute",
    "SkSpatial.C100_segment_triangle",
    "SkSpatial.C100_arrays",
    "SkSpatial.C100_is_close_type",
    "SkSpatial.C100_is_coplanar_type",
    "SkSpatial.C100_intersect_plane"
   ],
   "note": ""
  },
  {
   "property": "C101",
   "status": "proved",
   "theorems": [
    "SkSpatial.C101_vectors",
    "SkSpatial.C101_orientation2",
    "SkSpatial.C101_orientation3",
    "SkSpatial.C101_line",
    "SkSpatial.C101_line_line",
    "SkSpatial.C101_plane",
    "SkSpatial.C101_plane_line",
    "SkSpatial.C101_plane_plane",
    "SkSpatial.C101_points",
    "SkSpatial.C101_line_best_fit",
    "SkSpatial.C101_plane_best_fit",
    "SkSpatial.C101_circle",
    "SkSpatial.C101_circle_from_points",
    "SkSpatial.C101_sphere",
    "SkSpatial.C101_cylinder",
    "SkSpatial.C101_measurement",
    "SkSpatial.C101_volume",
    "SkSpatial.C101_area_signed",
    "SkSpatial.C101_side_point",
    "SkSpatial.C101_triangle",
    "SkSpatial.C101_triangle_constructor",
    "SkSpatial.C101_segment"
   ],
   "note": ""
  },
  {
   "property": "C102",
   "status": "proved",
   "theorems": [
    "SkSpatial.C102_line",
    "SkSpatial.C102_side_point",
    "SkSpatial.C102_intersect_line",
    "SkSpatial.C102_distance_line",
    "SkSpatial.C102_plane",
    "SkSpatial.C102_plane_line",
    "SkSpatial.C102_intersect_plane",
    "SkSpatial.C102_circle_line",
    "SkSpatial.C102_sphere_line",
    "SkSpatial.C102_cylinder",
    "SkSpatial.C102_infinite_cylinder",
    "SkSpatial.C102_segment",
    "SkSpatial.C102_nearly_parallel_defect"
   ],
   "note": ""
  },
  {
   "property": "C103",
   "status": "proved",
   "theorems": [
    "SkSpatial.C103_point_set",
    "SkSpatial.C103_point_set_rounded",
    "SkSpatial.C103_centroid",
    "SkSpatial.C103_line_best_fit",
    "SkSpatial.C103_plane_best_fit",
    "SkSpatial.C103_circle_from_points",
    "SkSpatial.C103_plane_from_points",
    "SkSpatial.C103_intersect_circle",
    "SkSpatial.C103_intersect_plane",
    "SkSpatial.C103_circle_best_fit",
    "SkSpatial.C103_sphere_best_fit",
    "SkSpatial.C103_orthocenter",
    "SkSpatial.C103_nearly_parallel_defect",
    "SkSpatial.C103_centroid_rounded_order"
   ],
   "note": ""
  },
  {
   "property": "C104",
   "status": "proved",
   "theorems": [
    "SkSpatial.C104_arithmetic",
    "SkSpatial.C104_vector",
    "SkSpatial.C104_points",
    "SkSpatial.C104_line",
    "SkSpatial.C104_side_point",
    "SkSpatial.C104_line_line",
    "SkSpatial.C104_plane",
    "SkSpatial.C104_plane_line",
    "SkSpatial.C104_plane_plane",
    "SkSpatial.C104_sphere",
    "SkSpatial.C104_circle",
    "SkSpatial.C104_cylinder",
    "SkSpatial.C104_segment",
    "SkSpatial.C104_triangle",
    "SkSpatial.C104_measurement",
    "SkSpatial.C104_area_signed",
    "SkSpatial.C104_circle_line_defect",
    "SkSpatial.C104_measures",
    "SkSpatial.C104_mean_center"
   ],
   "note": ""
  },
  {
   "property": "C105",
   "status": "proved",
   "theorems": [
    "SkSpatial.C105_affine_rank",
    "SkSpatial.C105_affine_rank_default",
    "SkSpatial.C105_near_flat",
    "SkSpatial.C105_degenerate",
    "SkSpatial.C105_accepted",
    "SkSpatial.C105_triangle",
    "SkSpatial.C105_collinear_defect"
   ],
   "note": ""
  },
  {
   "property": "C106",
   "status": "proved",
   "theorems": [
    "SkSpatial.C106_line_best_fit",
    "SkSpatial.C106_plane_best_fit",
    "SkSpatial.C106_two_points_defect"
   ],
   "note": ""
  },
  {
   "property": "C107",
   "status": "proved",
   "theorems": [
    "SkSpatial.C107_same_result",
    "SkSpatial.C107_overflow",
    "SkSpatial.C107_binary64",
    "SkSpatial.C107_sphere_intersect_line"
   ],
   "note": ""
  },
  {
   "property": "C108",
   "status": "proved",
   "theorems": [
    "SkSpatial.C108_is_coplanar",
    "SkSpatial.C108_intersect_line_defect"
   ],
   "note": ""
  },
  {
   "property": "C109",
   "status": "proved",
   "theorems": [
    "SkSpatial.C109_intersect_line",
    "SkSpatial.C109_plane",
    "SkSpatial.C109_distance_line"
   ],
   "note": ""
  },
  {
   "property": "C110",
   "status": "proved",
   "theorems": [
    "SkSpatial.C110_sphere_intersect_line",
    "SkSpatial.C110_circle_intersect_line",
    "SkSpatial.C110_circle_intersect_circle"
   ],
   "note": ""
  },
  {
   "property": "C111",
   "status": "proved",
   "theorems": [
    "SkSpatial.C111_infinite_cylinder",
    "SkSpatial.C111_parallel_line_defect",
    "SkSpatial.C111_digits"
   ],
   "note": ""
  },
  {
   "property": "C112",
   "status": "proved",
   "theorems": [
    "SkSpatial.C112_through_caps",
    "SkSpatial.C112_finite_cylinder",
    "SkSpatial.C112_rim_defect",
    "SkSpatial.C112_returned"
   ],
   "note": ""
  },
  {
   "property": "C113",
   "status": "proved",
   "theorems": [
    "SkSpatial.C113_line_project_points",
    "SkSpatial.C113_plane_project_points",
    "SkSpatial.C113_line_distance_points",
    "SkSpatial.C113_plane_distance_points",
    "SkSpatial.C113_plane_sum_squares",
    "SkSpatial.C113_line_sum_squares",
    "SkSpatial.C113_plane_project_vector",
    "SkSpatial.C113_plane_project_line",
    "SkSpatial.C113_mean_center"
   ],
   "note": ""
  },
  {
   "property": "C114",
   "status": "proved",
   "theorems": [
    "SkSpatial.C114_angle_signed",
    "SkSpatial.C114_angle_signed_closed_form",
    "SkSpatial.C114_angle_signed_zero",
    "SkSpatial.C114_angle_signed_3d",
    "SkSpatial.C114_angle_signed_3d_parallel",
    "SkSpatial.C114_line_side_point",
    "SkSpatial.C114_different_direction",
    "SkSpatial.C114_line_from_points",
    "SkSpatial.C114_line_to_point"
   ],
   "note": ""
  },
  {
   "property": "C115",
   "status": "proved",
   "theorems": [
    "SkSpatial.C115_normal",
    "SkSpatial.C115_centroid",
    "SkSpatial.C115_altitude",
    "SkSpatial.C115_from_vectors",
    "SkSpatial.C115_from_points",
    "SkSpatial.C115_cartesian",
    "SkSpatial.C115_transform_points"
   ],
   "note": ""
  },
  {
   "property": "C116",
   "status": "proved",
   "theorems": [
    "SkSpatial.C116_from_points",
    "SkSpatial.C116_from_points_collinear",
    "SkSpatial.C116_closed_form",
    "SkSpatial.C116_from_points_default"
   ],
   "note": ""
  },
  {
   "property": "C117",
   "status": "proved",
   "theorems": [
    "SkSpatial.C117_intersect_plane",
    "SkSpatial.C117_parallel"
   ],
   "note": ""
  },
  {
   "property": "C118",
   "status": "proved",
   "theorems": [
    "SkSpatial.C118_circle_best_fit",
    "SkSpatial.C118_sphere_best_fit"
   ],
   "note": ""
  },
  {
   "property": "C119",
   "status": "proved",
   "theorems": [
    "SkSpatial.C119_orthocenter"
   ],
   "note": ""
  },
  {
   "property": "C120",
   "status": "proved",
   "theorems": [
    "SkSpatial.C120_sphere",
    "SkSpatial.C120_plane",
    "SkSpatial.C120_cylinder"
   ],
   "note": ""
  },
  {
   "property": "C121",
   "status": "proved",
   "theorems": [
    "SkSpatial.C121_intersect_line_segment",
    "SkSpatial.C121_line_is_close",
    "SkSpatial.C121_plane_is_close",
    "SkSpatial.C121_is_close_defect"
   ],
   "note": ""
  },
  {
   "property": "C122",
   "status": "proved",
   "theorems": [
    "SkSpatial.C122_angle_signed",
    "SkSpatial.C122_intersect_line",
    "SkSpatial.C122_plane_from_vectors",
    "SkSpatial.C122_circle_intersect_circle",
    "SkSpatial.C122_circle_intersect_line",
    "SkSpatial.C122_rank",
    "SkSpatial.C122_triangle_new",
    "SkSpatial.C122_is_coplanar",
    "SkSpatial.C122_intersect_line_checked",
    "SkSpatial.C122_plane_from_points",
    "SkSpatial.C122_segment",
    "SkSpatial.C122_line",
    "SkSpatial.C122_plane",
    "SkSpatial.C122_triangle",
    "SkSpatial.C122_triangle_normal",
    "SkSpatial.C122_points",
    "SkSpatial.C122_triangle_centroid",
    "SkSpatial.C122_area_signed",
    "SkSpatial.C122_line_batch",
    "SkSpatial.C122_plane_batch",
    "SkSpatial.C122_plane_sum_squares"
   ],
   "note": ""
  },
  {
   "property": "C123",
   "status": "proved",
   "theorems": [
    "SkSpatial.C123_sphere_intersect_line",
    "SkSpatial.C123_circle_intersect_line",
    "SkSpatial.C123_circle_intersect_circle",
    "SkSpatial.C123_intersect_line",
    "SkSpatial.C123_plane_intersect_line",
    "SkSpatial.C123_angles",
    "SkSpatial.C123_measure",
    "SkSpatial.C123_from_vectors",
    "SkSpatial.C123_triangle",
    "SkSpatial.C123_triangle_angle"
   ],
   "note": ""
  },
  {
   "property": "C124",
   "status": "proved",
   "theorems": [
    "SkSpatial.C124_line",
    "SkSpatial.C124_plane_contains",
    "SkSpatial.C124_sphere",
    "SkSpatial.C124_circle",
    "SkSpatial.C124_measure",
    "SkSpatial.C124_side",
    "SkSpatial.C124_segment",
    "SkSpatial.C124_line_is_close",
    "SkSpatial.C124_plane_is_close",
    "SkSpatial.C124_line_batch",
    "SkSpatial.C124_plane_batch",
    "SkSpatial.C124_plane_project",
    "SkSpatial.C124_triangle",
    "SkSpatial.C124_normal"
   ],
   "note": ""
  },
  {
   "property": "C125",
   "status": "proved",
   "theorems": [
    "SkSpatial.C125_cylinder_intersect_line",
    "SkSpatial.C125_infinite_cylinder",
    "SkSpatial.C125_through_caps",
    "SkSpatial.C125_finite_cylinder",
    "SkSpatial.C125_returned"
   ],
   "note": ""
  },
  {
   "property": "C126",
   "status": "proved",
   "theorems": [
    "SkSpatial.C126_intersect_line_segment",
    "SkSpatial.C126_orthocenter"
   ],
   "note": ""
  },
  {
   "property": "C127",
   "status": "proved",
   "theorems": [
    "SkSpatial.C127_intersect_line_segment_same",
    "SkSpatial.C127_intersect_line_segment"
   ],
   "note": ""
  },
  {
   "property": "C128",
   "status": "proved",
   "theorems": [
    "SkSpatial.C128_returned",
    "SkSpatial.C128_collinear",
    "SkSpatial.C128_circle_from_points"
   ],
   "note": ""
  },
  {
   "property": "C129",
   "status": "proved",
   "theorems": [
    "SkSpatial.C129_returned",
    "SkSpatial.C129_intersect_plane",
    "SkSpatial.C129_parallel"
   ],
   "note": ""
  },
  {
   "property": "C130",
   "status": "proved",
   "theorems": [
    "SkSpatial.C130_symmetric",
    "SkSpatial.C130_opposite",
    "SkSpatial.C130_line",
    "SkSpatial.C130_plane",
    "SkSpatial.C130_batch",
    "SkSpatial.C130_segment",
    "SkSpatial.C130_measures"
   ],
   "note": ""
  }
 ]
}
{
 "claims": [
  {
   "property": "C01",
   "status": "proved",
   "theorems": [
    "DRT.C01_componentwise",
    "DRT.C01_dot_eq_sum",
    "DRT.C01_dot_comm",
    "DRT.C01_dot_linear",
    "DRT.C01_norm"
   ],
   "note": "Exact arithmetic, any dimension."
  },
  {
   "property": "C02",
   "status": "proved",
   "theorems": [
    "DRT.C02_normalize_unit",
    "DRT.C02_normalize_zero"
   ],
   "note": "Exact arithmetic; the zero vector gives NaN in every component."
  },
  {
   "property": "C03",
   "status": "proved",
   "theorems": [
    "DRT.C03_difference_of_products",
    "DRT.C03_cross_orthogonal",
    "DRT.C03_cross_anticomm",
    "DRT.C03_cross_length",
    "DRT.C03_cross_components",
    "DRT.C03_cross_zero_iff_parallel"
   ],
   "note": ""
  },
  {
   "property": "C04",
   "status": "proved",
   "theorems": [
    "DRT.C04_reflect"
   ],
   "note": ""
  },
  {
   "property": "C05",
   "status": "partial",
   "theorems": [
    "DRT.C05_max_norm_finite_partial",
    "DRT.C05_matrix_max_norm_partial",
    "DRT.C05_nan_hidden_false",
    "DRT.C05_nan_first_partial"
   ],
   "note": "Sup norm for finite vectors and matrices and NaN in the first component; a NaN in a later component is hidden (C05_nan_hidden_false)."
  },
  {
   "property": "C06",
   "status": "proved",
   "theorems": [
    "DRT.C06_det2",
    "DRT.C06_det3",
    "DRT.C06_det_mul",
    "DRT.C06_det_zero_iff"
   ],
   "note": ""
  },
  {
   "property": "C07",
   "status": "proved",
   "theorems": [
    "DRT.C07_inverse2",
    "DRT.C07_inverse3",
    "DRT.C07_inverse_value"
   ],
   "note": ""
  },
  {
   "property": "C08",
   "status": "proved",
   "theorems": [
    "DRT.C08_mul_mulVec",
    "DRT.C08_mulVec_spec",
    "DRT.C08_mul_spec",
    "DRT.C08_index_bijective",
    "DRT.C08_flat_refines"
   ],
   "note": ""
  },
  {
   "property": "C09",
   "status": "partial",
   "theorems": [
    "DRT.C09_solve2_partial",
    "DRT.C09_window_false"
   ],
   "note": "Solve is exact outside the singularity window; fails inside it (C09_window_false)."
  },
  {
   "property": "C10",
   "status": "partial",
   "theorems": [
    "DRT.C10_solve3_iff_partial",
    "DRT.C10_identity_false",
    "DRT.C10_pivot_false"
   ],
   "note": "3x3 solve has no pivoting: succeeds exactly when the pivots used are nonzero; fails on some nonsingular matrices."
  },
  {
   "property": "C11",
   "status": "partial",
   "theorems": [
    "DRT.C11_vector_oob_false",
    "DRT.C11_contract_square",
    "DRT.C11_index",
    "DRT.C11_oob_false",
    "DRT.C11_rect_false"
   ],
   "note": "Contraction is right for cubic tensors and matching vectors; rectangular tensors index out of bounds."
  },
  {
   "property": "C12",
   "status": "partial",
   "theorems": [
    "DRT.C12_quadratic_roots_partial",
    "DRT.C12_multiplicity",
    "DRT.C12_quadratic_roots_ideal",
    "DRT.C12_zero_polynomial_false",
    "DRT.C12_window_false"
   ],
   "note": "Exactly the real roots unless a coefficient lies in the threshold window or all three are zero; both exceptions are refuted with witnesses."
  },
  {
   "property": "C13",
   "status": "proved",
   "theorems": [
    "DRT.C13_size",
    "DRT.C13_ordered"
   ],
   "note": ""
  },
  {
   "property": "C14",
   "status": "proved",
   "theorems": [
    "DRT.C14_in_range",
    "DRT.C14_least_root"
   ],
   "note": ""
  },
  {
   "property": "C15",
   "status": "proved",
   "theorems": [
    "DRT.C15_discriminant",
    "DRT.C15_sign_decides"
   ],
   "note": ""
  },
  {
   "property": "C16",
   "status": "partial",
   "theorems": [
    "DRT.C16_cubic_sound_partial",
    "DRT.C16_cubic_complete_partial",
    "DRT.C16_double_root_false"
   ],
   "note": "Sound, sorted, complete unless there is a double root with nonzero constant term; then a root is always missed (C16_double_root_false)."
  },
  {
   "property": "C17",
   "status": "partial",
   "theorems": [
    "DRT.C17_quartic_sound_partial",
    "DRT.C17_quartic_complete_partial",
    "DRT.C17_quartic_ideal_partial",
    "DRT.C17_missed_false"
   ],
   "note": "Sound; complete unless 0 or the mean of the roots is a root; x(x-1)^2(x+2) misses 1."
  },
  {
   "property": "C18",
   "status": "partial",
   "theorems": [
    "DRT.C18_sorted_partial",
    "DRT.C18_first_is_nearest_partial",
    "DRT.C18_unsorted_false"
   ],
   "note": "Sorted under every rounding unless the constant coefficient is (near) zero, where 0 is appended unsorted."
  },
  {
   "property": "C19",
   "status": "partial",
   "theorems": [
    "DRT.C19_bisect_partial",
    "DRT.C19_terminates",
    "DRT.C19_bracket_false",
    "DRT.C19_overshoot_false"
   ],
   "note": "bisect tests f_min*f_min instead of f_min*f_mid: full description of what it returns, plus refutations of the bracket and of the range."
  },
  {
   "property": "C20",
   "status": "partial",
   "theorems": [
    "DRT.C20_newton_partial",
    "DRT.C20_halley_partial",
    "DRT.C20_newton_exact",
    "DRT.C20_halley_exact",
    "DRT.C20_nan_false",
    "DRT.C20_halley_leaves_range"
   ],
   "note": "Every finite return passed the test or is a bisection midpoint, under any rounding; a NaN derivative passes the test (C20_nan_false). C20_halley_leaves_range shows that halley can return a point outside its range."
  },
  {
   "property": "C21",
   "status": "proved",
   "theorems": [
    "DRT.C21_residual",
    "DRT.C21_expected",
    "DRT.C21_exact",
    "DRT.C21_stale"
   ],
   "note": "Any rounding. The test uses the expected residual of the last accepted step, which C21_stale shows can be out of date after a restart."
  },
  {
   "property": "C22",
   "status": "partial",
   "theorems": [
    "DRT.C22_one_dimension_terminates",
    "DRT.C22_newton_partial",
    "DRT.C22_halley",
    "DRT.C22_restarts_false"
   ],
   "note": "Loop bodies and domain-leaving restarts are bounded for every function and rounding; restarts after failed backtracking are not counted (C22_restarts_false)."
  },
  {
   "property": "C23",
   "status": "partial",
   "theorems": [
    "DRT.C23_inside_partial",
    "DRT.C23_newton2_partial",
    "DRT.C23_newton3_partial",
    "DRT.C23_window_false",
    "DRT.C23_identity_false"
   ],
   "note": "Inside for every solver that solves the system; fails for the library's solve in its window and on the identity."
  },
  {
   "property": "C24",
   "status": "proved",
   "theorems": [
    "DRT.C24_residual",
    "DRT.C24_in_bound",
    "DRT.C24_distance",
    "DRT.C24_zero_direction",
    "DRT.C24_outside"
   ],
   "note": "Residual and t range for every patch and rounding. C24_zero_direction and C24_outside show two effects outside the statement: NaN t for a zero direction, and (u,v) outside the bounds."
  },
  {
   "property": "C25",
   "status": "partial",
   "theorems": [
    "DRT.C25_add",
    "DRT.C25_sub",
    "DRT.C25_sub_assign",
    "DRT.C25_mode_restored",
    "DRT.C25_self_subtract_false"
   ],
   "note": "Containment for any directed rounding; x -= x is refuted."
  },
  {
   "property": "C26",
   "status": "partial",
   "theorems": [
    "DRT.C26_contains_rounded",
    "DRT.C26_contains_partial",
    "DRT.C26_rounding_false"
   ],
   "note": "Contains the rounded product under any monotone rounding, and the exact product in exact arithmetic; refuted in binary32."
  },
  {
   "property": "C27",
   "status": "partial",
   "theorems": [
    "DRT.C27_contains_partial",
    "DRT.C27_negative_zero_partial",
    "DRT.C27_zero_upper_false",
    "DRT.C27_straddle_false"
   ],
   "note": "Holds for divisors that exclude zero or end at a zero of the right sign; refuted for straddling divisors and for upper end zero."
  },
  {
   "property": "C28",
   "status": "partial",
   "theorems": [
    "DRT.C28_contains_partial",
    "DRT.C28_mixed_sign_false"
   ],
   "note": "Holds unless the power is even, the interval has mixed signs and the negative end is larger; then it always fails."
  },
  {
   "property": "C29",
   "status": "partial",
   "theorems": [
    "DRT.C29_intersection",
    "DRT.C29_disjoint_not_empty_false",
    "DRT.C29_hull_partial",
    "DRT.C29_hull_false"
   ],
   "note": "Intersection is exact; hull and empty are refuted."
  },
  {
   "property": "C30",
   "status": "partial",
   "theorems": [
    "DRT.C30_exp",
    "DRT.C30_log_partial",
    "DRT.C30_sqrt_partial",
    "DRT.C30_negative_lower_false",
    "DRT.C30_abs"
   ],
   "note": "exp and abs always; log and sqrt for a nonnegative lower end, refuted otherwise."
  },
  {
   "property": "C31",
   "status": "proved",
   "theorems": [
    "DRT.C31_ge",
    "DRT.C31_ge_complete",
    "DRT.C31_distance",
    "DRT.C31_degenerate"
   ],
   "note": ""
  },
  {
   "property": "C32",
   "status": "partial",
   "theorems": [
    "DRT.C32_contains_iff_partial",
    "DRT.C32_nan_false"
   ],
   "note": "Exact for NaN-free points; NaN is accepted (C32_nan_false)."
  },
  {
   "property": "C33",
   "status": "partial",
   "theorems": [
    "DRT.C33_contains2_partial",
    "DRT.C33_contains3_partial",
    "DRT.C33_above_false",
    "DRT.C33_inside_rejected_false"
   ],
   "note": "The overloads are characterised exactly; they disagree with membership in both directions."
  },
  {
   "property": "C34",
   "status": "partial",
   "theorems": [
    "DRT.C34_random_inside",
    "DRT.C34_center",
    "DRT.C34_volume",
    "DRT.C34_empty_partial",
    "DRT.C34_degenerate_false",
    "DRT.C34_inverted_false"
   ],
   "note": "random, center and volume for ordered boxes; empty() is refuted for degenerate and doubly inverted boxes."
  },
  {
   "property": "C35",
   "status": "proved",
   "theorems": [
    "DRT.C35_full_period",
    "DRT.C35_visits_all",
    "DRT.C35_stream"
   ],
   "note": ""
  },
  {
   "property": "C36",
   "status": "partial",
   "theorems": [
    "DRT.C36_range",
    "DRT.C36_double",
    "DRT.C36_rounded_partial",
    "DRT.C36_float_false"
   ],
   "note": "[0,1) in exact arithmetic and binary64; [0,1] under any rounding; 1 is reached in binary32."
  },
  {
   "property": "C37",
   "status": "proved",
   "theorems": [
    "DRT.C37_either",
    "DRT.C37_opposes"
   ],
   "note": ""
  },
  {
   "property": "C38",
   "status": "partial",
   "theorems": [
    "DRT.C38_shape_operator",
    "DRT.C38_principal_partial",
    "DRT.C38_window_false"
   ],
   "note": "Shape operator equations always; principal curvatures outside the discriminant window; refuted inside it."
  },
  {
   "property": "C39",
   "status": "proved",
   "theorems": [
    "DRT.C39_nearest_number",
    "DRT.C39_nearest"
   ],
   "note": "Any rounding. C39_nearest for objects whose hits carry numbers; C39_nearest_number also allows hits whose parameter is NaN, which the list ignores."
  },
  {
   "property": "C40",
   "status": "proved",
   "theorems": [
    "DRT.C40_miss_untouched",
    "DRT.C40_hit_sane"
   ],
   "note": ""
  },
  {
   "property": "C41",
   "status": "proved",
   "theorems": [
    "DRT.C41_aligned",
    "DRT.C41_no_out_of_range"
   ],
   "note": ""
  },
  {
   "property": "C42",
   "status": "proved",
   "theorems": [
    "DRT.C42_least_box",
    "DRT.C42_no_box"
   ],
   "note": ""
  },
  {
   "property": "C43",
   "status": "proved",
   "theorems": [
    "DRT.C43_hit_iff",
    "DRT.C43_enlarge",
    "DRT.C43_flat_box_missed"
   ],
   "note": "Exact characterisation for all rays and boxes, also flat ones (which are never hit, C43_flat_box_missed)."
  },
  {
   "property": "C44",
   "status": "partial",
   "theorems": [
    "DRT.C44_nearest",
    "DRT.C44_same_as_list",
    "DRT.C44_list_miss",
    "DRT.C44_dirty_miss_false",
    "DRT.C44_coplanar_false"
   ],
   "note": "Equality with the list for objects that leave the record alone on a miss and report numbers; refuted without the first (C44_dirty_miss_false) and, with the rectangles of the library, without the second (C44_coplanar_false)."
  },
  {
   "property": "C45",
   "status": "partial",
   "theorems": [
    "DRT.C45_terminates_partial",
    "DRT.C45_empty_false"
   ],
   "note": "Terminates for every nonempty list and any comparison; refuted for the empty one."
  },
  {
   "property": "C46",
   "status": "partial",
   "theorems": [
    "DRT.C46_nearest_partial",
    "DRT.C46_nearest_ideal",
    "DRT.C46_window_false",
    "DRT.C46_in_range"
   ],
   "note": "Nearest hit when the quadratic's coefficients are outside the tiny window; C46_nearest_ideal has no such condition for formats whose tiny is 0. Inside the window the reported point need not be on the sphere (C46_window_false)."
  },
  {
   "property": "C47",
   "status": "proved",
   "theorems": [
    "DRT.C47_record"
   ],
   "note": ""
  },
  {
   "property": "C48",
   "status": "proved",
   "theorems": [
    "DRT.C48_derivatives"
   ],
   "note": ""
  },
  {
   "property": "C49",
   "status": "proved",
   "theorems": [
    "DRT.C49_forms",
    "DRT.C49_curvature"
   ],
   "note": ""
  },
  {
   "property": "C50",
   "status": "proved",
   "theorems": [
    "DRT.C50_box"
   ],
   "note": ""
  },
  {
   "property": "C51",
   "status": "partial",
   "theorems": [
    "DRT.C51_nearest_partial",
    "DRT.C51_nearest_ideal",
    "DRT.C51_window_false",
    "DRT.C51_in_range"
   ],
   "note": "As C46, with C51_window_false."
  },
  {
   "property": "C52",
   "status": "proved",
   "theorems": [
    "DRT.C52_record"
   ],
   "note": ""
  },
  {
   "property": "C53",
   "status": "partial",
   "theorems": [
    "DRT.C53_forms",
    "DRT.C53_agree_partial",
    "DRT.C53_pole_false",
    "DRT.C53_bounds"
   ],
   "note": "Both formulas agree away from the poles; at the poles the recorded one is NaN."
  },
  {
   "property": "C54",
   "status": "proved",
   "theorems": [
    "DRT.C54_box"
   ],
   "note": ""
  },
  {
   "property": "C55",
   "status": "proved",
   "theorems": [
    "DRT.C55_quartic",
    "DRT.C55_zero_set"
   ],
   "note": ""
  },
  {
   "property": "C56",
   "status": "partial",
   "theorems": [
    "DRT.C56_in_range",
    "DRT.C56_on_torus_partial",
    "DRT.C56_ideal",
    "DRT.C56_ghost_false"
   ],
   "note": "In range always (any rounding); on the torus up to the residual test; exact when tiny is 0. Refuted in general: a ray through the hole, parallel to the axis, very near the inner equator is reported though it meets the torus nowhere."
  },
  {
   "property": "C57",
   "status": "partial",
   "theorems": [
    "DRT.C57_nearest_partial",
    "DRT.C57_ideal_partial",
    "DRT.C57_negative_false",
    "DRT.C57_tangent_false"
   ],
   "note": "Nearest hit for nonnegative ranges and simple crossings; refuted for negative parameters and tangent rays."
  },
  {
   "property": "C58",
   "status": "proved",
   "theorems": [
    "DRT.C58_getUV",
    "DRT.C58_getUV_eval",
    "DRT.C58_box",
    "DRT.C58_normal",
    "DRT.C58_curvature_bounds",
    "DRT.C58_record"
   ],
   "note": "Includes that the recorded forms are those of the parametrisation."
  },
  {
   "property": "C59",
   "status": "partial",
   "theorems": [
    "DRT.C59_exact_partial",
    "DRT.C59_parallel",
    "DRT.C59_coplanar_false"
   ],
   "note": "Exact for rays that cross the plane; coplanar rays are reported as NaN hits."
  },
  {
   "property": "C60",
   "status": "partial",
   "theorems": [
    "DRT.C60_record",
    "DRT.C60_eval_false",
    "DRT.C60_forms_kept",
    "DRT.C60_box"
   ],
   "note": "Record and boxes; operator() returns NaN (C60_eval_false) and the forms of the record are left as they were."
  },
  {
   "property": "C61",
   "status": "proved",
   "theorems": [
    "DRT.C61_rotation"
   ],
   "note": ""
  },
  {
   "property": "C62",
   "status": "proved",
   "theorems": [
    "DRT.C62_nearest",
    "DRT.C62_parallel",
    "DRT.C62_record",
    "DRT.C62_curvature_nan"
   ],
   "note": "C62_curvature_nan: the recorded curvature is always NaN, which the statement does not forbid."
  },
  {
   "property": "C63",
   "status": "partial",
   "theorems": [
    "DRT.C63_box_iff_false",
    "DRT.C63_box_never_hit"
   ],
   "note": "Exact characterisation of the disks that the box contains; the box is flat, so aabb::hit never accepts it (C63_box_never_hit)."
  },
  {
   "property": "C64",
   "status": "partial",
   "theorems": [
    "DRT.C64_outside_partial",
    "DRT.C64_stale_false",
    "DRT.C64_tangent_false"
   ],
   "note": "Holds for rays whose first crossing is in range; refuted on the far wall and for rays inside the surface."
  },
  {
   "property": "C65",
   "status": "partial",
   "theorems": [
    "DRT.C65_outside_partial",
    "DRT.C65_inside_false"
   ],
   "note": "Holds for rays whose first crossing is in range; refuted from inside."
  },
  {
   "property": "C66",
   "status": "proved",
   "theorems": [
    "DRT.C66_getUV",
    "DRT.C66_forms",
    "DRT.C66_box"
   ],
   "note": ""
  },
  {
   "property": "C67",
   "status": "partial",
   "theorems": [
    "DRT.C67_first",
    "DRT.C67_second_partial",
    "DRT.C67_second_false"
   ],
   "note": "First derivatives and the unmixed second ones; mixed ones lack the factor radius."
  },
  {
   "property": "C68",
   "status": "partial",
   "theorems": [
    "DRT.C68_mean",
    "DRT.C68_curvature_false",
    "DRT.C68_bounds_partial",
    "DRT.C68_bounds_false"
   ],
   "note": "Mean curvature zero; gaussian curvature and bounds refuted, with the factor 4 pi^2."
  },
  {
   "property": "C69",
   "status": "partial",
   "theorems": [
    "DRT.C69_any_solver",
    "DRT.C69_distance_partial",
    "DRT.C69_axial_false",
    "DRT.C69_inside_partial",
    "DRT.C69_box",
    "DRT.C69_hits_in_box_partial"
   ],
   "note": "Range for every solver on non-axial rays, distance bound through the residual test; axial rays refuted."
  },
  {
   "property": "C70",
   "status": "proved",
   "theorems": [
    "DRT.C70_derivatives"
   ],
   "note": ""
  },
  {
   "property": "C71",
   "status": "proved",
   "theorems": [
    "DRT.C71_forms",
    "DRT.C71_bounds"
   ],
   "note": ""
  },
  {
   "property": "C72",
   "status": "proved",
   "theorems": [
    "DRT.C72_any_solver",
    "DRT.C72_range",
    "DRT.C72_distance",
    "DRT.C72_box"
   ],
   "note": "For every linear solver used in place of matrix::solve; with the one of the code, hit is undefined on every ray that meets the ball of the surface (C135)."
  },
  {
   "property": "C73",
   "status": "proved",
   "theorems": [
    "DRT.C73_inside",
    "DRT.C73_beer_lambert",
    "DRT.C73_zero_density",
    "DRT.C73_sphere",
    "DRT.C73_box"
   ],
   "note": "For any boundary that reports non-NaN parameters, plus an instance for the sphere."
  },
  {
   "property": "C74",
   "status": "proved",
   "theorems": [
    "DRT.C74_always",
    "DRT.C74_scatter"
   ],
   "note": ""
  },
  {
   "property": "C75",
   "status": "proved",
   "theorems": [
    "DRT.C75_terminates",
    "DRT.C75_first_accepted",
    "DRT.C75_ball",
    "DRT.C75_hemisphere",
    "DRT.C75_isotropic"
   ],
   "note": ""
  },
  {
   "property": "C76",
   "status": "proved",
   "theorems": [
    "DRT.C76_metal"
   ],
   "note": ""
  },
  {
   "property": "C77",
   "status": "proved",
   "theorems": [
    "DRT.C77_refract",
    "DRT.C77_scatter"
   ],
   "note": ""
  },
  {
   "property": "C78",
   "status": "proved",
   "theorems": [
    "DRT.C78_range",
    "DRT.C78_ends",
    "DRT.C78_antitone"
   ],
   "note": ""
  },
  {
   "property": "C79",
   "status": "partial",
   "theorems": [
    "DRT.C79_light",
    "DRT.C79_black",
    "DRT.C79_dielectric_false",
    "DRT.C79_textures",
    "DRT.C79_checker",
    "DRT.C79_checker_alternates"
   ],
   "note": "Refuted for the dielectric built with an emission texture; the rest holds."
  },
  {
   "property": "C80",
   "status": "proved",
   "theorems": [
    "DRT.C80_queries",
    "DRT.C80_black",
    "DRT.C80_defined",
    "DRT.C80_bounded",
    "DRT.C80_materials",
    "DRT.C80_scene",
    "DRT.C80_scene_defined",
    "DRT.C80_materials_defined",
    "DRT.C80_lights"
   ],
   "note": "Any world, any stateful materials; also instantiated with the library's materials and lists."
  },
  {
   "property": "C81",
   "status": "proved",
   "theorems": [
    "DRT.C81_furnace"
   ],
   "note": ""
  },
  {
   "property": "C82",
   "status": "proved",
   "theorems": [
    "DRT.C82_rays",
    "DRT.C82_center",
    "DRT.C82_field_of_view",
    "DRT.C82_aspect",
    "DRT.C82_backlight"
   ],
   "note": ""
  },
  {
   "property": "C83",
   "status": "proved",
   "theorems": [
    "DRT.C83_addresses",
    "DRT.C83_schedule",
    "DRT.C83_order",
    "DRT.C83_cost",
    "DRT.C83_pixels",
    "DRT.C83_image"
   ],
   "note": ""
  },
  {
   "property": "C84",
   "status": "partial",
   "theorems": [
    "DRT.C84_schedule_false",
    "DRT.C84_uniform_partial"
   ],
   "note": "The image does depend on the schedule; for materials that do not draw, all schedules agree."
  },
  {
   "property": "C85",
   "status": "partial",
   "theorems": [
    "DRT.C85_range",
    "DRT.C85_rounded",
    "DRT.C85_one_pixel_false"
   ],
   "note": "Range in exact arithmetic and under any rounding for at least two pixels; one-pixel images divide by zero."
  },
  {
   "property": "C86",
   "status": "partial",
   "theorems": [
    "DRT.C86_pixels",
    "DRT.C86_undefined_false",
    "DRT.C86_range",
    "DRT.C86_constant_false"
   ],
   "note": "Range and pixels when not all times are equal; undefined otherwise."
  },
  {
   "property": "C87",
   "status": "proved",
   "theorems": [
    "DRT.C87_differs",
    "DRT.C87_extension",
    "DRT.C87_short"
   ],
   "note": ""
  },
  {
   "property": "C88",
   "status": "partial",
   "theorems": [
    "DRT.C88_alpha_false",
    "DRT.C88_defined",
    "DRT.C88_monotone",
    "DRT.C88_value",
    "DRT.C88_ends",
    "DRT.C88_pixel",
    "DRT.C88_negative_false"
   ],
   "note": "Nonnegative and infinite channels; undefined for negative and NaN; with four channels the opacity is gamma corrected (C88_alpha_false)."
  },
  {
   "property": "C89",
   "status": "proved",
   "theorems": [
    "DRT.C89_range",
    "DRT.C89_clamped",
    "DRT.C89_rounded",
    "DRT.C89_ieee",
    "DRT.C89_nan",
    "DRT.C89_grayscale"
   ],
   "note": "Exact, any rounding with the stated laws, and the IEEE formats; NaN input is undefined (C89_nan) as the statement excludes it."
  },
  {
   "property": "C90",
   "status": "proved",
   "theorems": [
    "DRT.C90_nodes",
    "DRT.C90_lipschitz"
   ],
   "note": "Every table: nodes are hit exactly and the map is Lipschitz with the largest step of the table."
  },
  {
   "property": "C91",
   "status": "partial",
   "theorems": [
    "DRT.C91_inverse",
    "DRT.C91_degenerate_false",
    "DRT.C91_marks",
    "DRT.C91_image"
   ],
   "note": "Inverse on grid points for windows not beginning at 0 and images of at least 2 pixels; refuted otherwise."
  },
  {
   "property": "C92",
   "status": "proved",
   "theorems": [
    "DRT.C92_bar",
    "DRT.C92_percent",
    "DRT.C92_length"
   ],
   "note": ""
  },
  {
   "property": "C93",
   "status": "partial",
   "theorems": [
    "DRT.C93_cylinder_false",
    "DRT.C93_disk",
    "DRT.C93_ellipsoid",
    "DRT.C93_enneper_partial",
    "DRT.C93_helicoid_false",
    "DRT.C93_medium",
    "DRT.C93_rect",
    "DRT.C93_sphere",
    "DRT.C93_torus_false"
   ],
   "note": "Sphere, ellipsoid, rectangles, disk, medium keep the record on a miss; cylinder, torus and helicoid do not; enneper keeps it unless the residual test fails."
  },
  {
   "property": "C94",
   "status": "proved",
   "theorems": [
    "DRT.C94_equidistributed",
    "DRT.C94_rotation"
   ],
   "note": ""
  },
  {
   "property": "C95",
   "status": "partial",
   "theorems": [
    "DRT.C95_helicoid_false"
   ],
   "note": "Refuted for the helicoid."
  },
  {
   "property": "C96",
   "status": "proved",
   "theorems": [
    "DRT.C96_g",
    "DRT.C96_fifth",
    "DRT.C96_roots"
   ],
   "note": ""
  },
  {
   "property": "C97",
   "status": "partial",
   "theorems": [
    "DRT.C97_root",
    "DRT.C97_fractal",
    "DRT.C97_zero_false",
    "DRT.C97_converges",
    "DRT.C97_positive"
   ],
   "note": "Every value returned is near a root, for both functions; convergence near each root; from 0 the search never ends."
  },
  {
   "property": "C98",
   "status": "partial",
   "theorems": [
    "DRT.C98_angle",
    "DRT.C98_defined",
    "DRT.C98_pixel",
    "DRT.C98_seam_false"
   ],
   "note": "Colour is determined by the direction of the returned value; at the root 1 the seam of the colour map is visible."
  },
  {
   "property": "C99",
   "status": "partial",
   "theorems": [
    "DRT.C99_halley_false",
    "DRT.C99_near_partial",
    "DRT.C99_positive"
   ],
   "note": "Refuted for points of large modulus (C99_halley_false). C99_near_partial: every returned value of modulus at most 1/(100 eps) is within 4 eps of a fifth root of unity. C99_positive: the search from every positive real ends near 1."
  },
  {
   "property": "C100",
   "status": "proved",
   "theorems": [
    "DRT.C100_difference_of_products",
    "DRT.C100_determinant",
    "DRT.C100_cross",
    "DRT.C100_discriminant"
   ],
   "note": "Any rounding direction, with underflow; the compiler flags of the project (-ffast-math) allow the compiler to remove the compensation, which the model does not represent."
  },
  {
   "property": "C101",
   "status": "proved",
   "theorems": [
    "DRT.C101_dot",
    "DRT.C101_squared_norm",
    "DRT.C101_mul_vec",
    "DRT.C101_mul"
   ],
   "note": "Any rounding direction, with underflow, any dimension."
  },
  {
   "property": "C102",
   "status": "proved",
   "theorems": [
    "DRT.C102_normalize",
    "DRT.C102_normalize3"
   ],
   "note": "Formats without overflow and underflow; any dimension, explicit constants in space."
  },
  {
   "property": "C103",
   "status": "proved",
   "theorems": [
    "DRT.C103_residual",
    "DRT.C103_empty",
    "DRT.C103_nonempty",
    "DRT.C103_finite"
   ],
   "note": "Formats without overflow and underflow; all branches of quadratic_roots."
  },
  {
   "property": "C104",
   "status": "proved",
   "theorems": [
    "DRT.C104_parameter",
    "DRT.C104_sphere"
   ],
   "note": "Formats without overflow and underflow."
  },
  {
   "property": "C105",
   "status": "partial",
   "theorems": [
    "DRT.C105_ellipsoid",
    "DRT.C105_sphere_false",
    "DRT.C105_pole_false",
    "DRT.C105_torus",
    "DRT.C105_enneper",
    "DRT.C105_enneper_hit",
    "DRT.C105_helicoid",
    "DRT.C105_disk"
   ],
   "note": "Exact arithmetic. For equal semi-axes (C105_sphere_false) and at the poles of an ellipsoid (C105_pole_false) the colour is undefined. The helicoid's curvature and bounds are both too small by the same factor, which cancels in the picture."
  },
  {
   "property": "C106",
   "status": "proved",
   "theorems": [
    "DRT.C106_scene_number",
    "DRT.C106_scene"
   ],
   "note": "Any format. The upper end of the range is excluded because the list compares with a strict inequality. C106_scene_number also allows members that report NaN parameters on some rays."
  },
  {
   "property": "C107",
   "status": "partial",
   "theorems": [
    "DRT.C107_crossing",
    "DRT.C107_nearest_partial",
    "DRT.C107_bounding_box",
    "DRT.C107_along_false"
   ],
   "note": "Exact arithmetic. For every ray the first crossing of a face is found (C107_crossing); it is the first point of the surface unless the ray starts on a face and runs along it (C107_along_false). The class cannot be instantiated as written (it uses an older interface of the list); its algorithm is modelled."
  },
  {
   "property": "C108",
   "status": "proved",
   "theorems": [
    "DRT.C108_visible",
    "DRT.C108_unique"
   ],
   "note": "Exact arithmetic."
  },
  {
   "property": "C109",
   "status": "proved",
   "theorems": [
    "DRT.C109_unseen",
    "DRT.C109_shines"
   ],
   "note": "Exact arithmetic."
  },
  {
   "property": "C110",
   "status": "proved",
   "theorems": [
    "DRT.C110_visible",
    "DRT.C110_places",
    "DRT.C110_names"
   ],
   "note": "Exact arithmetic for the geometry."
  },
  {
   "property": "C111",
   "status": "partial",
   "theorems": [
    "DRT.C111_double",
    "DRT.C111_float",
    "DRT.C111_pixels",
    "DRT.C111_square",
    "DRT.C111_ellipsoid_false"
   ],
   "note": "The heights are for IEEE float and double with rounding; the shape of the pixels is in exact arithmetic. ellipsoid.cpp makes the camera for the aspect ratio 1 and stretches its picture (C111_ellipsoid_false)."
  },
  {
   "property": "C112",
   "status": "partial",
   "theorems": [
    "DRT.C112_apart_partial",
    "DRT.C112_overlap_false"
   ],
   "note": "Exact arithmetic. Proved for the metal sphere and, up to touching, for the ground; refuted for the glass sphere and for neighbouring small spheres (C112_overlap_false)."
  },
  {
   "property": "C113",
   "status": "proved",
   "theorems": [
    "DRT.C113_newton_quadratic",
    "DRT.C113_halley_cubic",
    "DRT.C113_newton_affine",
    "DRT.C113_halley_moebius",
    "DRT.C113_halley_vertex"
   ],
   "note": "The bounds on one step are stated for the loop body, the exact solutions for the whole search. Exact arithmetic."
  },
  {
   "property": "C114",
   "status": "proved",
   "theorems": [
    "DRT.C114_descent",
    "DRT.C114_newton_affine",
    "DRT.C114_halley_moebius"
   ],
   "note": "Exact arithmetic. The descent needs the hypotheses of C23."
  },
  {
   "property": "C115",
   "status": "proved",
   "theorems": [
    "DRT.C115_default",
    "DRT.C115_plane"
   ],
   "note": "Exact arithmetic. The starting point must not already be accepted and the plane through it and the ray must make an angle above eps with the surface."
  },
  {
   "property": "C116",
   "status": "proved",
   "theorems": [
    "DRT.C116_sphere_area",
    "DRT.C116_torus_area",
    "DRT.C116_sphere_volume",
    "DRT.C116_torus_volume"
   ],
   "note": "Exact arithmetic. The torus theorems need 0 ≤ r ≤ R; a torus that meets itself is not covered. The area is that of the parametrized patch over the unit square; that texture coordinates invert the parametrization is C47 and C58."
  },
  {
   "property": "C117",
   "status": "proved",
   "theorems": [
    "DRT.C117_equation",
    "DRT.C117_distance"
   ],
   "note": "Formats with rounding but without overflow and underflow (F.Free). The finite parameter is a hypothesis; it holds whenever both ends of the range are finite."
  },
  {
   "property": "C118",
   "status": "proved",
   "theorems": [
    "DRT.C118_rect",
    "DRT.C118_cylinder",
    "DRT.C118_ellipsoid"
   ],
   "note": "Formats with rounding but without overflow and underflow (F.Free)."
  },
  {
   "property": "C119",
   "status": "partial",
   "theorems": [
    "DRT.C119_rect",
    "DRT.C119_sphere",
    "DRT.C119_rect_false"
   ],
   "note": "C119_rect and C119_sphere prove the claim under a condition on the scattered direction. C119_rect_false shows that for directions close to the plane it fails in single precision. The condition of C119_sphere requires that the coordinates of the sphere, the ray and the radius are not much larger than the outward component of the direction, so it says nothing about spheres of radius 1000 with directions of length 1."
  },
  {
   "property": "C120",
   "status": "proved",
   "theorems": [
    "DRT.C120_image",
    "DRT.C120_with_lights",
    "DRT.C120_cylinder",
    "DRT.C120_spheres",
    "DRT.C120_ellipsoid",
    "DRT.C120_disk",
    "DRT.C120_torus"
   ],
   "note": "C120_image is the general statement: a scene in which every query and scattering is defined and bounded yields a complete image. Termination of the rejection loop is C75_terminates, an invariant of the generator over its whole period. disk and torus_curvature are proved in exact arithmetic only, because with rounding a scattered direction can vanish and turn into NaN. The curvature programs of the ellipsoid, Enneper's surface and the helicoid are not covered; the first has undefined behaviour at the poles (C105_pole_false)."
  },
  {
   "property": "C121",
   "status": "proved",
   "theorems": [
    "DRT.C121_superposition",
    "DRT.C121_brighter"
   ],
   "note": ""
  },
  {
   "property": "C122",
   "status": "proved",
   "theorems": [
    "DRT.C122_pixel",
    "DRT.C122_seen",
    "DRT.C122_lamps",
    "DRT.C122_empty"
   ],
   "note": ""
  },
  {
   "property": "C123",
   "status": "partial",
   "theorems": [
    "DRT.C123_cone",
    "DRT.C123_cosine_false",
    "DRT.C123_unlit",
    "DRT.C123_wall_false"
   ],
   "note": "Refuted. scatter adds to the normal a point of the half ball on its own side, so every direction is within 45 degrees of the normal (C123_cone) although by Lambert's law half should not be (C123_cosine_false). A floor beside a lamp lower than its distance stays black although the lamp is in plain view (C123_wall_false). C123_unlit is the general statement about pictures. Exact arithmetic."
  },
  {
   "property": "C124",
   "status": "partial",
   "theorems": [
    "DRT.C124_ray",
    "DRT.C124_image",
    "DRT.C124_checker_false",
    "DRT.C124_cylinder",
    "DRT.C124_build",
    "DRT.C124_disk_box_false"
   ],
   "note": "C124_ray and C124_image: proved in exact arithmetic for every scene whose objects are moved (Sphere.moved, Ellipsoid.moved, Torus.moved, Disk.moved, Rect.xy_moved etc. and Bvh.moved show that the classes with a centre can be) and whose textures do not look at the position. A checker_texture does, so a checkered object changes its colours when it is moved (C124_checker_false). A cylinder, which has no centre, can be moved along its axis only (C124_cylinder). C124_build: the moved objects are built into the moved tree, if their boxes move with them and the sort goes by the comparisons only; the boxes of disks do not move (C124_disk_box_false)."
  },
  {
   "property": "C125",
   "status": "partial",
   "theorems": [
    "DRT.C125_height",
    "DRT.C125_leaves",
    "DRT.C125_nodes",
    "DRT.C125_cost",
    "DRT.C125_asked",
    "DRT.C125_twice_false"
   ],
   "note": "C125_height, C125_nodes, C125_cost, C125_asked: proved for every Scalar, with no assumption on the arithmetic. Asking each object at most once is false: an object left alone in a node is both children of it (C125_twice_false, three objects); C125_leaves bounds this by a third of the objects. asked and boxTests are ghosts that follow the calls of hit."
  },
  {
   "property": "C126",
   "status": "partial",
   "theorems": [
    "DRT.C126_law",
    "DRT.C126_path",
    "DRT.C126_ball_partial",
    "DRT.C126_thin_false",
    "DRT.C126_ring_false",
    "DRT.C126_hole_false"
   ],
   "note": "C126_law and C126_path: exact arithmetic, any boundary object whose hit finds the nearest point of a surface that the line of the ray crosses twice, at least 100*eps apart, any range and any origin (also inside). C126_ball_partial: the instance for sphere, all rays outside the thresholds of the root finder, including rays that miss or graze. Refuted: chords shorter than 100*eps in the parameter (C126_thin_false, a unit ball), boundaries crossed more than twice (C126_ring_false, C126_hole_false, a torus)."
  },
  {
   "property": "C127",
   "status": "partial",
   "theorems": [
    "DRT.C127_far_false",
    "DRT.C127_near_partial"
   ],
   "note": "C127_far_false refutes it in every IEEE format of at least 9 bits (float and double among them): a ray that enters a sphere or ellipsoid at a parameter of 256 or more is never scattered, because rec1.t + 100*eps rounds to rec1.t. C127_near_partial: for entries between 0 and 64 the second query does not return the first crossing."
  },
  {
   "property": "C128",
   "status": "partial",
   "theorems": [
    "DRT.C128_mirror",
    "DRT.C128_reverse",
    "DRT.C128_pane",
    "DRT.C128_ball",
    "DRT.C128_probability_false"
   ],
   "note": "C128_mirror, C128_reverse, C128_pane and C128_ball prove the directions in exact arithmetic; total reflection never happens on the way back. C128_probability_false refutes equal probabilities: reflectance takes the cosine of the incoming angle on both sides, so grazing entry into index 2 reflects with probability 1 and the reversed path with less than 1/8."
  },
  {
   "property": "C129",
   "status": "partial",
   "theorems": [
    "DRT.C129_hit",
    "DRT.C129_ray",
    "DRT.C129_spheres_partial",
    "DRT.C129_image_partial",
    "DRT.C129_tie_false",
    "DRT.C129_curvature_false"
   ],
   "note": "C129_hit and C129_ray prove it under any rounding for objects that report the same first hit whatever bound they are given and are never hit at the same parameter. C129_spheres_partial and C129_image_partial discharge these conditions for disjoint spheres in exact arithmetic with the root finder's threshold set to 0; other shapes are shown to qualify one by one (Steady) but not inside whole images. C129_tie_false: of objects in the same place the first one added is seen. C129_curvature_false: the curvature recorded on a rectangle is that of an object asked earlier."
  },
  {
   "property": "C130",
   "status": "proved",
   "theorems": [
    "DRT.C130_miss",
    "DRT.C130_hit",
    "DRT.C130_first",
    "DRT.C130_seen",
    "DRT.C130_rim"
   ],
   "note": "C130_miss, C130_hit, C130_seen and C130_first carry explicit constants; the width of the rim is 29 units of rounding of the squared distance from the ray's origin plus the squared radius. C130_rim: the width cannot be dropped. In binary32 a ray from 4096 units away that passes 0.8 percent inside the rim is missed. Formats with overflow or underflow are outside the positive theorems."
  },
  {
   "property": "C131",
   "status": "proved",
   "theorems": [
    "DRT.C131_stream",
    "DRT.C131_lost",
    "DRT.C131_alone",
    "DRT.C131_image",
    "DRT.C131_sequential",
    "DRT.C131_with_lights",
    "DRT.C131_cylinder",
    "DRT.C131_ends_with_lights",
    "DRT.C131_ends_cylinder"
   ],
   "note": "A draw is modelled as a load of the 64-bit state followed by a store; C131_stream and C131_image hold for every interleaving, C131_with_lights and C131_cylinder apply them to two programs, C131_sequential and C131_ends_* show that complete runs exist and link to the sequential model. C131_lost: updates get lost, so two threads can use the same random numbers. Outside the model: that the standard calls the unlocked access a data race, the std::mt19937_64 generators of dielectric, isotropic and constant_medium, and whether every fair interleaving ends."
  },
  {
   "property": "C132",
   "status": "proved",
   "theorems": [
    "DRT.C132_torus",
    "DRT.C132_torus_positive",
    "DRT.C132_cylinder",
    "DRT.C132_newton",
    "DRT.C132_helicoid"
   ],
   "note": "In exact arithmetic. The sharpness (greatest value attained) fixes the factors 20, 10 and 1."
  },
  {
   "property": "C133",
   "status": "proved",
   "theorems": [
    "DRT.C133_quadratic",
    "DRT.C133_fixed"
   ],
   "note": "In exact arithmetic. The constant and the neighbourhood depend on the ray."
  },
  {
   "property": "C134",
   "status": "partial",
   "theorems": [
    "DRT.C134_colour",
    "DRT.C134_pole_false"
   ],
   "note": "Exact arithmetic with the threshold of the quadratic solver set to zero. Proved for every ray of the camera that neither touches the ellipsoid nor passes through one of its two poles; refuted for the ray through the middle of frame 90, which meets a pole, where the recorded curvature is not a number and the colour map has no defined value."
  },
  {
   "property": "C135",
   "status": "partial",
   "theorems": [
    "DRT.C135_never_false",
    "DRT.C135_ball_false",
    "DRT.C135_program_false"
   ],
   "note": "Refuted. compute_uvt calls Newton's method from u = v = 0, where an entry of the first column of the matrix is zero and matrix::solve reads an element that it never wrote. Proved for every monotone rounding that hit never returns true with defined behaviour, and in exact arithmetic that it is undefined exactly for the rays that meet the ball within their range and a correct miss otherwise; the image of enneper.cpp is undefined for every order of the rows."
  },
  {
   "property": "C136",
   "status": "proved",
   "theorems": [
    "DRT.C136_peak",
    "DRT.C136_enneper",
    "DRT.C136_helicoid",
    "DRT.C136_sharp"
   ],
   "note": "The general bound holds for every monotone rounding for which L is a number of the format; the two programs are treated in exact arithmetic, enneper.cpp for every value that indeterminate elements may hold. The bound 2 is attained."
  },
  {
   "property": "C137",
   "status": "proved",
   "theorems": [
    "DRT.C137_sphere",
    "DRT.C137_ellipsoid",
    "DRT.C137_cylinder",
    "DRT.C137_torus",
    "DRT.C137_disk",
    "DRT.C137_rectangles"
   ],
   "note": "Proved in exact arithmetic. Perpendicular means perpendicular to the velocity of every differentiable curve in the surface; the body is the solid the surface bounds (for disk and rectangles the half-space behind the plane, for the cylinder the infinite solid cylinder). For sphere, ellipsoid, cylinder and torus the recorded point is assumed to be on the surface, which C46, C51, C65 and C57 provide; for rectangles the ray is assumed not to be parallel to the plane (see C59)."
  },
  {
   "property": "C138",
   "status": "partial",
   "theorems": [
    "DRT.C138_sphere_partial",
    "DRT.C138_cylinder_partial",
    "DRT.C138_ellipsoid_partial",
    "DRT.C138_torus_false"
   ],
   "note": "Refuted by the torus, which records its second form for the outward normal: its mean curvature is -(2ρ-R)/(2rρ) at distance ρ from the axis, negative on the whole outer half. Sphere (1/R), cylinder (1/(2r)) and ellipsoid (the classical formula, positive) agree with each other, except at the poles of sphere and ellipsoid, where the record holds no numbers."
  },
  {
   "property": "C139",
   "status": "partial",
   "theorems": [
    "DRT.C139_twins_false",
    "DRT.C139_tasks",
    "DRT.C139_sampler_false",
    "DRT.C139_first_false"
   ],
   "note": "Refuted: all generators are seeded with the same two constants. Two matt materials hit with the same normals scatter into the same directions for ever; in each picture sample 3k has the place ((a+1)/2, (b+1)/2) in its pixel, where (a, b, c) is trial 2k of each matt material; and the first bounce of every matt material goes into the normal plus or minus one fixed vector. C139_tasks (how many numbers are used before a pixel) holds."
  },
  {
   "property": "C140",
   "status": "partial",
   "theorems": [
    "DRT.C140_straight_partial",
    "DRT.C140_mirror_false",
    "DRT.C140_panes_partial",
    "DRT.C140_eight_false"
   ],
   "note": "Refuted: Schlick's formula still mirrors the share (1 - cos)^5 of the rays that come at an angle (C140_mirror_false), and each pane uses up a level of depth, so that eight panes are black (C140_eight_false). It holds for rays whose random number is at least (1 - cos)^5 (C140_straight_partial), in particular for perpendicular rays through fewer panes than the depth (C140_panes_partial)."
  },
  {
   "property": "C141",
   "status": "partial",
   "theorems": [
    "DRT.C141_clip",
    "DRT.C141_ubounds",
    "DRT.C141_vbounds_partial",
    "DRT.C141_miss_false"
   ],
   "note": "Refuted for the second coordinate: the upper end of vbounds is the smaller of the distances from the axis at the two ends of the range instead of the larger, and a ray that starts nearer to the axis than it meets the surface is reported as a miss (C141_miss_false). C141_clip and C141_ubounds hold (nothing calls ubounds); C141_vbounds_partial says for which intersections the bounds on v are right."
  },
  {
   "property": "C142",
   "status": "partial",
   "theorems": [
    "DRT.C142_tiles",
    "DRT.C142_box",
    "DRT.C142_edge_false"
   ],
   "note": "C142_tiles holds for every rounding: pieces of one rectangle are hit exactly where the whole is, and report the same distance, point and normal. C142_box holds in exact arithmetic. With rounding the claim is false for rectangles at a right angle, in float and in double: a ray through a point of the common edge misses both walls and sees the lamp behind them (C142_edge_false)."
  },
  {
   "property": "C143",
   "status": "partial",
   "theorems": [
    "DRT.C143_axial",
    "DRT.C143_level",
    "DRT.C143_seam_false",
    "DRT.C143_ruling_false"
   ],
   "note": "C143_axial: a ray parallel to the axis and off it is reported with the parameters of the only point that it meets. C143_level: a ray orthogonal to the axis that crosses the line of the surface at its height inside the range is reported there. Refuted in two special positions: a ray above the line u = 0 may be given the lower of its two points (C143_seam_false), and a ray along a line of the surface is missed unless the radius is 1 (C143_ruling_false)."
  },
  {
   "property": "C144",
   "status": "partial",
   "theorems": [
    "DRT.C144_directed",
    "DRT.C144_product_false",
    "DRT.C144_exact",
    "DRT.C144_tight"
   ],
   "note": "By induction on the expression. C144_directed: sums, differences and exponentials with any directed rounding. C144_exact: all operations without rounding. C144_tight: the exact range if no variable occurs twice. C144_product_false: products are computed in the mode at the start, so x * x in single precision may miss the square of x."
  },
  {
   "property": "C145",
   "status": "proved",
   "theorems": [
    "DRT.C145_leaves",
    "DRT.C145_trapped",
    "DRT.C145_may_leave"
   ],
   "note": "By induction on the number of hits: (p - c) x u is the same along the whole path inside and is the index times smaller than outside. C145_leaves: the angle and the plane. C145_may_leave: the ray meets the sphere again, and leaves exactly if the random number is at least s < 1. C145_trapped: a flat ray from inside never leaves."
  },
  {
   "property": "C146",
   "status": "partial",
   "theorems": [
    "DRT.C146_directions",
    "DRT.C146_corner",
    "DRT.C146_closed",
    "DRT.C146_leak_false"
   ],
   "note": "C146_directions by induction on the list of mirrors, C146_corner for each order of three of them. C146_closed: in a room of lamps the colour is that of the walls, if the ray is still in the room at the offset 1000 eps. C146_leak_false: in a room of perfect mirrors a ray mirrored within the offset from an edge misses the other wall, and ray_color yields the background."
  },
  {
   "property": "C147",
   "status": "proved",
   "theorems": [
    "DRT.C147_isotropic",
    "DRT.C147_isotropic_unit",
    "DRT.C147_lambertian_draw",
    "DRT.C147_lambertian",
    "DRT.C147_medium",
    "DRT.C147_glass"
   ],
   "note": "The probability is Lebesgue measure for uniform numbers and the product of three normal distributions for isotropic; that the generators have these distributions is not claimed (see C84, C139 for the generator). C147_lambertian_draw links the vector at which the loop ends to the direction; C147_lambertian is the volume of a part of the ball, by slices. It is not Lambert's law, see C123."
  },
  {
   "property": "C148",
   "status": "partial",
   "theorems": [
    "DRT.C148_fair",
    "DRT.C148_ends",
    "DRT.C148_kept",
    "DRT.C148_quick",
    "DRT.C148_points",
    "DRT.C148_opposite_false"
   ],
   "note": "The first claims are proved. The last is refuted: (-1, 0, 0) can be returned, (1, 0, 0) cannot."
  },
  {
   "property": "C149",
   "status": "partial",
   "theorems": [
    "DRT.C149_ray",
    "DRT.C149_image",
    "DRT.C149_mirror",
    "DRT.C149_matt_false"
   ],
   "note": "Proved in exact arithmetic for metal, glass and light with textures that do not look at the place. Refuted for matt material, whose directions are drawn in the axes of space."
  },
  {
   "property": "C150",
   "status": "partial",
   "theorems": [
    "DRT.C150_sphere",
    "DRT.C150_rect",
    "DRT.C150_disk",
    "DRT.C150_ellipsoid",
    "DRT.C150_ray",
    "DRT.C150_image",
    "DRT.C150_small_false",
    "DRT.C150_box",
    "DRT.C150_tree",
    "DRT.C150_build",
    "DRT.C150_rect_box_false",
    "DRT.C150_cylinder",
    "DRT.C150_cylinder_false",
    "DRT.C150_list_with_cylinders"
   ],
   "note": "The hits: for every format whose rounding commutes with the factor (all factors in exact arithmetic, powers of two for rounding to p bits), without underflow and overflow. The colours and the image: provided that nothing on the path of a ray lies between the fixed distance 1000*eps in the one unit and in the other. Refuted without this: a small lamp disappears. Cylinders: only if the records before the call correspond too, for the colours the temporary record of hittable_list; refuted for unrelated records, since the cylinder may report what the record held. Trees: the same tree is built and met, if the sort goes by the comparisons only, for spheres, ellipsoids and cylinders; refuted for the boxes of rectangles, which are thickened by a number without a unit. Not covered: torus, the numerically solved surfaces, fog, whose constants have no unit either."
  },
  {
   "property": "C151",
   "status": "proved",
   "theorems": [
    "DRT.C151_contents",
    "DRT.C151_count",
    "DRT.C151_seen"
   ],
   "note": "In exact arithmetic. Half of the small balls are meant to be matt, a quarter metal, a quarter glass; that share is stated by the thresholds of the random number, not as a probability."
  },
  {
   "property": "C152",
   "status": "proved",
   "theorems": [
    "DRT.C152_visible",
    "DRT.C152_fog"
   ],
   "note": "In exact arithmetic, with a uniform random number, for rays whose quadratic has no coefficient between zero and numeric_limits::min() (see C51) and whose crossings are at least 100*eps apart."
  },
  {
   "property": "C153",
   "status": "partial",
   "theorems": [
    "DRT.C153_enclosed",
    "DRT.C153_glass",
    "DRT.C153_middle_partial",
    "DRT.C153_cut_false"
   ],
   "note": "In exact arithmetic. Enclosure and glass are proved; of the helicoid only the part between the heights -1 and 1 is shown to be in the picture. Refuted: the ends of the axis, at the heights -1.5 and 1.5, are not in the picture. The cylinder reaches from -3 to 3, twice as far as the helicoid."
  },
  {
   "property": "C154",
   "status": "proved",
   "theorems": [
    "DRT.C154_ball",
    "DRT.C154_torus",
    "DRT.C154_disk",
    "DRT.C154_lights"
   ],
   "note": "In exact arithmetic."
  },
  {
   "property": "C155",
   "status": "proved",
   "theorems": [
    "DRT.C155_independent",
    "DRT.C155_total",
    "DRT.C155_program"
   ],
   "note": "In exact arithmetic with ideal random numbers; for boundaries that a ray crosses twice."
  },
  {
   "property": "C156",
   "status": "proved",
   "theorems": [
    "DRT.C156_vertex"
   ],
   "note": "In exact arithmetic, for curvatures of the normal section that are not below the square of epsilon."
  },
  {
   "property": "C157",
   "status": "partial",
   "theorems": [
    "DRT.C157_speed",
    "DRT.C157_norm_false"
   ],
   "note": "True for movements along the axes, where the bound is attained (C157_speed); for other movements a factor of three is needed, since max_norm of a matrix is its largest entry and not the operator norm (C157_norm_false). In exact arithmetic."
  },
  {
   "property": "C158",
   "status": "partial",
   "theorems": [
    "DRT.C158_greatest",
    "DRT.C158_monotone",
    "DRT.C158_rounded_false",
    "DRT.C158_arithmetic",
    "DRT.C158_converges"
   ],
   "note": "Greatest distance, arithmetic and convergence in exact arithmetic; not negative and monotone for every rounding. Refuted for the rounded width: width() does not round upward, so members can be farther apart than it says (C158_rounded_false)."
  },
  {
   "property": "C159",
   "status": "partial",
   "theorems": [
    "DRT.C159_backup",
    "DRT.C159_newton",
    "DRT.C159_halley",
    "DRT.C159_nan",
    "DRT.C159_found",
    "DRT.C159_zero_false"
   ],
   "note": "Proved in exact arithmetic with the distance of one scanning step. Refuted for the plain reading that the result is a zero up to rounding: on a cubic with its true derivative newton returns a point where the function is above 1/10 although it has a zero in the range (C159_zero_false)."
  },
  {
   "property": "C160",
   "status": "partial",
   "theorems": [
    "DRT.C160_middle_partial",
    "DRT.C160_rims_false",
    "DRT.C160_lamp",
    "DRT.C160_dark_false",
    "DRT.C160_sight"
   ],
   "note": "In exact arithmetic. Proved: the wall between the heights -6 and 6 is in the frame, the lamp is not, and straight lines from the wall to the lamp on its outer side meet nothing. Refuted: no point of the two rims is in the frame; points of the wall with x at most 0.9 are black with certainty, although part of the lamp may be in sight, since the material scatters within 45 degrees of the normal only (C123). In the frame means inside the field of view, nothing is said about points behind others."
  }
 ]
}
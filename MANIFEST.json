{
 "claims": [
  {
   "property": "C01",
   "status": "proved",
   "theorems": [
    "Klein.C01_plane_mul_plane"
   ],
   "note": ""
  },
  {
   "property": "C02",
   "status": "proved",
   "theorems": [
    "Klein.C02_plane_mul_point",
    "Klein.C02_point_mul_plane"
   ],
   "note": ""
  },
  {
   "property": "C03",
   "status": "proved",
   "theorems": [
    "Klein.C03_rotor_mul_rotor",
    "Klein.C03_branch_mul_branch"
   ],
   "note": ""
  },
  {
   "property": "C04",
   "status": "proved",
   "theorems": [
    "Klein.C04_point_mul_point",
    "Klein.C04_displacement",
    "Klein.C04_sqrt_takes",
    "Klein.C04_point_div_point"
   ],
   "note": ""
  },
  {
   "property": "C05",
   "status": "partial",
   "theorems": [
    "Klein.C05_line_mul_line_partial",
    "Klein.C05_line_mul_line_iff",
    "Klein.C05_line_mul_line_fails"
   ],
   "note": "The code violates the property: the e23 and e12 coefficients of line*line are exchanged (C05_line_mul_line_fails). Proved instead: exactly which coefficients are right, and the exact condition under which the product is right."
  },
  {
   "property": "C06",
   "status": "proved",
   "theorems": [
    "Klein.C06_rotor_mul_translator",
    "Klein.C06_translator_mul_rotor",
    "Klein.C06_translator_mul_translator",
    "Klein.C06_rotor_mul_motor",
    "Klein.C06_motor_mul_rotor",
    "Klein.C06_translator_mul_motor",
    "Klein.C06_motor_mul_translator",
    "Klein.C06_motor_mul_motor"
   ],
   "note": ""
  },
  {
   "property": "C07",
   "status": "proved",
   "theorems": [
    "Klein.C07_dual_mul_line",
    "Klein.C07_line_mul_dual",
    "Klein.C07_commute"
   ],
   "note": ""
  },
  {
   "property": "C08",
   "status": "proved",
   "theorems": [
    "Klein.C08_plane_meet_plane",
    "Klein.C08_plane_meet_branch",
    "Klein.C08_branch_meet_plane",
    "Klein.C08_plane_meet_ideal_line",
    "Klein.C08_ideal_line_meet_plane",
    "Klein.C08_plane_meet_line",
    "Klein.C08_line_meet_plane",
    "Klein.C08_plane_meet_point",
    "Klein.C08_point_meet_plane",
    "Klein.C08_branch_meet_ideal_line",
    "Klein.C08_ideal_line_meet_branch",
    "Klein.C08_line_meet_line",
    "Klein.C08_line_meet_ideal_line",
    "Klein.C08_ideal_line_meet_line",
    "Klein.C08_line_meet_branch",
    "Klein.C08_branch_meet_line"
   ],
   "note": ""
  },
  {
   "property": "C09",
   "status": "proved",
   "theorems": [
    "Klein.C09_point_join_point",
    "Klein.C09_point_join_line",
    "Klein.C09_line_join_point",
    "Klein.C09_point_join_branch",
    "Klein.C09_branch_join_point",
    "Klein.C09_point_join_ideal_line",
    "Klein.C09_ideal_line_join_point",
    "Klein.C09_plane_join_point",
    "Klein.C09_point_join_plane"
   ],
   "note": ""
  },
  {
   "property": "C10",
   "status": "proved",
   "theorems": [
    "Klein.C10_plane_dot_plane",
    "Klein.C10_plane_dot_line",
    "Klein.C10_line_dot_plane",
    "Klein.C10_plane_dot_ideal_line",
    "Klein.C10_ideal_line_dot_plane",
    "Klein.C10_plane_dot_point",
    "Klein.C10_point_dot_plane",
    "Klein.C10_line_dot_line",
    "Klein.C10_point_dot_line",
    "Klein.C10_line_dot_point",
    "Klein.C10_point_dot_point"
   ],
   "note": ""
  },
  {
   "property": "C11",
   "status": "proved",
   "theorems": [
    "Klein.C11_plane_dual",
    "Klein.C11_point_dual",
    "Klein.C11_line_dual",
    "Klein.C11_ideal_line_dual",
    "Klein.C11_branch_dual",
    "Klein.C11_dual_dual",
    "Klein.C11_involution"
   ],
   "note": ""
  },
  {
   "property": "C12",
   "status": "proved",
   "theorems": [
    "Klein.C12_plane_on_plane",
    "Klein.C12_plane_on_line",
    "Klein.C12_plane_on_point",
    "Klein.C12_point_coords",
    "Klein.C12_mirror",
    "Klein.C12_fixes_plane",
    "Klein.C12_involution",
    "Klein.C12_isometry"
   ],
   "note": ""
  },
  {
   "property": "C13",
   "status": "proved",
   "theorems": [
    "Klein.C13_rotor_on_plane",
    "Klein.C13_rotor_on_branch",
    "Klein.C13_rotor_on_line",
    "Klein.C13_rotor_on_point",
    "Klein.C13_rotor_on_direction"
   ],
   "note": ""
  },
  {
   "property": "C14",
   "status": "proved",
   "theorems": [
    "Klein.C14_translator_on_plane",
    "Klein.C14_translator_on_line",
    "Klein.C14_translator_on_point",
    "Klein.C14_translator_point_coords",
    "Klein.C14_translator_plane_normal",
    "Klein.C14_translator_line_direction"
   ],
   "note": ""
  },
  {
   "property": "C15",
   "status": "proved",
   "theorems": [
    "Klein.C15_motor_on_plane",
    "Klein.C15_motor_on_line",
    "Klein.C15_motor_on_point",
    "Klein.C15_motor_on_direction",
    "Klein.C15_motor_on_origin",
    "Klein.C15_motor_on_origin_eq",
    "Klein.C15_motor_on_origin_needs_norm"
   ],
   "note": ""
  },
  {
   "property": "C16",
   "status": "proved",
   "theorems": [
    "Klein.C16_rotor_rotor_plane",
    "Klein.C16_rotor_rotor_line",
    "Klein.C16_rotor_rotor_point",
    "Klein.C16_rotor_translator_plane",
    "Klein.C16_rotor_translator_line",
    "Klein.C16_rotor_translator_point",
    "Klein.C16_translator_rotor_plane",
    "Klein.C16_translator_rotor_line",
    "Klein.C16_translator_rotor_point",
    "Klein.C16_translator_translator_plane",
    "Klein.C16_translator_translator_line",
    "Klein.C16_translator_translator_point",
    "Klein.C16_rotor_motor_plane",
    "Klein.C16_rotor_motor_line",
    "Klein.C16_rotor_motor_point",
    "Klein.C16_motor_rotor_plane",
    "Klein.C16_motor_rotor_line",
    "Klein.C16_motor_rotor_point",
    "Klein.C16_translator_motor_plane",
    "Klein.C16_translator_motor_line",
    "Klein.C16_translator_motor_point",
    "Klein.C16_motor_translator_plane",
    "Klein.C16_motor_translator_line",
    "Klein.C16_motor_translator_point",
    "Klein.C16_motor_motor_plane",
    "Klein.C16_motor_motor_line",
    "Klein.C16_motor_motor_point"
   ],
   "note": ""
  },
  {
   "property": "C17",
   "status": "proved",
   "theorems": [
    "Klein.C17_weight",
    "Klein.C17_sqDist",
    "Klein.C17_vol",
    "Klein.C17_rigid"
   ],
   "note": ""
  },
  {
   "property": "C18",
   "status": "proved",
   "theorems": [
    "Klein.C18_plane_meet_plane",
    "Klein.C18_plane_meet_line",
    "Klein.C18_line_meet_plane",
    "Klein.C18_plane_meet_point",
    "Klein.C18_point_meet_plane",
    "Klein.C18_line_meet_line",
    "Klein.C18_plane_dot_plane",
    "Klein.C18_plane_dot_line",
    "Klein.C18_line_dot_plane",
    "Klein.C18_plane_dot_point",
    "Klein.C18_line_dot_line",
    "Klein.C18_point_dot_line",
    "Klein.C18_point_dot_point",
    "Klein.C18_point_join_point",
    "Klein.C18_point_join_line",
    "Klein.C18_line_join_point",
    "Klein.C18_plane_join_point",
    "Klein.C18_point_join_plane",
    "Klein.C18_needs_normalised"
   ],
   "note": ""
  },
  {
   "property": "C19",
   "status": "proved",
   "theorems": [
    "Klein.C19_join_coords",
    "Klein.C19_point_join_point_contains",
    "Klein.C19_point_join_point",
    "Klein.C19_point_join_point_zero",
    "Klein.C19_join_line_coords",
    "Klein.C19_point_join_line_contains",
    "Klein.C19_point_join_line_zero",
    "Klein.C19_three_points",
    "Klein.C19_point_join_plane_zero"
   ],
   "note": ""
  },
  {
   "property": "C20",
   "status": "proved",
   "theorems": [
    "Klein.C20_meet_coords",
    "Klein.C20_plane_meet_plane",
    "Klein.C20_parallel_planes",
    "Klein.C20_line_points",
    "Klein.C20_meet_line_coords",
    "Klein.C20_plane_meet_line",
    "Klein.C20_plane_meet_line_parallel",
    "Klein.C20_three_planes"
   ],
   "note": ""
  },
  {
   "property": "C21",
   "status": "proved",
   "theorems": [
    "Klein.C21_point_line_coords",
    "Klein.C21_point_line",
    "Klein.C21_point_line_closest",
    "Klein.C21_point_plane_coords",
    "Klein.C21_point_plane",
    "Klein.C21_point_plane_closest",
    "Klein.C21_line_plane",
    "Klein.C21_line_point",
    "Klein.C21_plane_point",
    "Klein.C21_plane_line"
   ],
   "note": ""
  },
  {
   "property": "C22",
   "status": "proved",
   "theorems": [
    "Klein.C22_join_points_sq",
    "Klein.C22_join_points",
    "Klein.C22_plane_angle",
    "Klein.C22_line_angle",
    "Klein.C22_join_point_plane",
    "Klein.C22_join_point_line_sq",
    "Klein.C22_join_point_line"
   ],
   "note": ""
  },
  {
   "property": "C23",
   "status": "proved",
   "theorems": [
    "Klein.C23_rcp",
    "Klein.C23_rcp_exact",
    "Klein.C23_rsqrt",
    "Klein.C23_sqrt",
    "Klein.C23_rsqrt_exact",
    "Klein.C23_rcp_bound",
    "Klein.C23_rsqrt_bound"
   ],
   "note": ""
  },
  {
   "property": "C24",
   "status": "proved",
   "theorems": [
    "Klein.C24_plane_value",
    "Klein.C24_direction_value",
    "Klein.C24_branch_value",
    "Klein.C24_rotor_value",
    "Klein.C24_point_value",
    "Klein.C24_motor_value",
    "Klein.C24_line_value",
    "Klein.C24_plane",
    "Klein.C24_direction",
    "Klein.C24_branch",
    "Klein.C24_rotor",
    "Klein.C24_point",
    "Klein.C24_motor",
    "Klein.C24_line",
    "Klein.C24_plane_bound",
    "Klein.C24_direction_bound",
    "Klein.C24_branch_bound",
    "Klein.C24_rotor_bound",
    "Klein.C24_point_bound",
    "Klein.C24_motor_bound",
    "Klein.C24_line_bound"
   ],
   "note": ""
  },
  {
   "property": "C25",
   "status": "partial",
   "theorems": [
    "Klein.C25_point_scale",
    "Klein.C25_point",
    "Klein.C25_rotor",
    "Klein.C25_motor",
    "Klein.C25_line",
    "Klein.C25_plane_iff",
    "Klein.C25_plane_partial",
    "Klein.C25_plane_fails_sse3",
    "Klein.C25_plane_fails_sse41"
   ],
   "note": "The code violates the property for planes: normalize does not scale d by the inverse norm, and the two builds differ (C25_plane_fails_sse3, C25_plane_fails_sse41). Proved: points, rotors, motors, lines; planes exactly when d = 0 or already normalised (C25_plane_iff)."
  },
  {
   "property": "C26",
   "status": "partial",
   "theorems": [
    "Klein.C26_plane_value",
    "Klein.C26_branch_value",
    "Klein.C26_motor_value",
    "Klein.C26_line_value",
    "Klein.C26_plane",
    "Klein.C26_branch",
    "Klein.C26_translator",
    "Klein.C26_motor",
    "Klein.C26_line",
    "Klein.C26_line_own_product",
    "Klein.C26_own_products",
    "Klein.C26_div_plane",
    "Klein.C26_div_branch",
    "Klein.C26_div_motor",
    "Klein.C26_div_translator",
    "Klein.C26_motor_div_translator",
    "Klein.C26_div_line_partial",
    "Klein.C26_div_line_fails"
   ],
   "note": "Proved for planes, branches, lines (x * x.inverse()), translators, motors, and division by them; violated by line / line, which inherits the exchanged coefficients of C05 (C26_div_line_fails)."
  },
  {
   "property": "C27",
   "status": "partial",
   "theorems": [
    "Klein.C27_rotor_value",
    "Klein.C27_rotor_iff",
    "Klein.C27_rotor_partial",
    "Klein.C27_rotor_fails",
    "Klein.C27_div_value",
    "Klein.C27_motor_div_value"
   ],
   "note": "The code violates the property: rotor::inverse omits the scalar from the norm (C27_rotor_fails); it holds exactly when the scalar is zero (C27_rotor_iff)."
  },
  {
   "property": "C28",
   "status": "partial",
   "theorems": [
    "Klein.C28_point_value",
    "Klein.C28_point_fails",
    "Klein.C28_point_inverse_partial"
   ],
   "note": "The code violates the property: P * P.inverse() is -1 for every point (C28_point_fails)."
  },
  {
   "property": "C29",
   "status": "proved",
   "theorems": [
    "Klein.C29_motor",
    "Klein.C29_rotor",
    "Klein.C29_branch",
    "Klein.C29_translator",
    "Klein.C29_plane_to_plane"
   ],
   "note": ""
  },
  {
   "property": "C30",
   "status": "proved",
   "theorems": [
    "Klein.C30_unit",
    "Klein.C30_action",
    "Klein.C30_add",
    "Klein.C30_full_turn",
    "Klein.C30_axis"
   ],
   "note": ""
  },
  {
   "property": "C31",
   "status": "proved",
   "theorems": [
    "Klein.C31_action",
    "Klein.C31_add"
   ],
   "note": ""
  },
  {
   "property": "C32",
   "status": "proved",
   "theorems": [
    "Klein.C32_normalised",
    "Klein.C32_add",
    "Klein.C32_action",
    "Klein.C32_line"
   ],
   "note": ""
  },
  {
   "property": "C33",
   "status": "partial",
   "theorems": [
    "Klein.C33_opposite_partial",
    "Klein.C33_fails",
    "Klein.C33_fails_iff"
   ],
   "note": "The code violates the property: rotor{ang, axis} turns in the direction opposite to motor{ang, 0, line} (C33_fails, C33_fails_iff). Proved instead: the two are each other's inverse turn."
  },
  {
   "property": "C34",
   "status": "proved",
   "theorems": [
    "Klein.C34_unit",
    "Klein.C34_matches_line",
    "Klein.C34_add",
    "Klein.C34_exp_log",
    "Klein.C34_log_exp"
   ],
   "note": ""
  },
  {
   "property": "C35",
   "status": "proved",
   "theorems": [
    "Klein.C35_zero",
    "Klein.C35_add",
    "Klein.C35_reverse",
    "Klein.C35_normalised",
    "Klein.C35_series",
    "Klein.C35_deriv"
   ],
   "note": ""
  },
  {
   "property": "C36",
   "status": "partial",
   "theorems": [
    "Klein.C36_generic",
    "Klein.C36_half_turn_pos",
    "Klein.C36_half_turn_neg",
    "Klein.C36_half_turn_fails",
    "Klein.C36_translation",
    "Klein.C36_translation_fails",
    "Klein.C36_cases",
    "Klein.C36_log_exp"
   ],
   "note": "The code violates the property: log of a half turn without displacement is 0, so its exponential is the identity (C36_half_turn_fails), and log of a translation with scalar -1 is the opposite translation (C36_translation_fails). Proved: every other normalised motor, up to sign, and a theorem that the cases are exhaustive (C36_cases)."
  },
  {
   "property": "C37",
   "status": "partial",
   "theorems": [
    "Klein.C37_generic_partial",
    "Klein.C37_fails_yaw",
    "Klein.C37_fails_gimbal",
    "Klein.C37_order"
   ],
   "note": "The code violates the property: the gimbal-lock test compares the wrong quantity (C37_fails_gimbal, C37_fails_yaw). Proved: the round trip on the remaining domain."
  },
  {
   "property": "C38",
   "status": "proved",
   "theorems": [
    "Klein.C38_mat4x4",
    "Klein.C38_mat3x4",
    "Klein.C38_mat3x4_needs_norm",
    "Klein.C38_product"
   ],
   "note": ""
  },
  {
   "property": "C39",
   "status": "partial",
   "theorems": [
    "Klein.C39_fails",
    "Klein.C39_fails_witness",
    "Klein.C39_columns_partial"
   ],
   "note": "The code violates the property: as_mat4x4/as_mat3x4 of a rotor read an uninitialised fourth column (C39_fails, C39_fails_witness). Proved: the first three columns are the rotation."
  },
  {
   "property": "C40",
   "status": "proved",
   "theorems": [
    "Klein.C40_rotor_planes",
    "Klein.C40_rotor_points",
    "Klein.C40_rotor_directions",
    "Klein.C40_rotor_lines",
    "Klein.C40_motor_planes",
    "Klein.C40_motor_points",
    "Klein.C40_motor_directions",
    "Klein.C40_motor_lines",
    "Klein.C40_rotor_planes_ub_iff",
    "Klein.C40_motor_points_ub_iff",
    "Klein.C40_motor_lines_ub_iff",
    "Klein.C40_example"
   ],
   "note": ""
  },
  {
   "property": "C41",
   "status": "partial",
   "theorems": [
    "Klein.C41_rotor_planes_fails",
    "Klein.C41_rotor_points_fails",
    "Klein.C41_rotor_directions_fails",
    "Klein.C41_rotor_lines_fails",
    "Klein.C41_motor_planes_fails",
    "Klein.C41_motor_points_fails",
    "Klein.C41_motor_directions_fails",
    "Klein.C41_motor_lines_fails",
    "Klein.C41_program_order_rotor_planes",
    "Klein.C41_program_order_motor_points",
    "Klein.C41_program_order_motor_lines",
    "Klein.C41_program_order_lines_direction_partial",
    "Klein.C41_hoisted_planes_partial",
    "Klein.C41_hoisted_points_partial",
    "Klein.C41_program_order_identity_planes",
    "Klein.C41_identity_spec",
    "Klein.C41_program_order_identity_points",
    "Klein.C41_program_order_lines_translation_partial",
    "Klein.C41_program_order_lines_fails"
   ],
   "note": "The code violates the property: `in` is a __restrict pointer, so in == out is always undefined behaviour (C41_*_fails), and executing the statements in program order gives wrong results (C41_program_order_*). Proved instead: what program order computes, that line directions stay right, and that the result is right if every element is loaded once."
  },
  {
   "property": "C42",
   "status": "partial",
   "theorems": [
    "Klein.C42_dot03",
    "Klein.C42_gp33",
    "Klein.C42_point_mul_point",
    "Klein.C42_point_div_point",
    "Klein.C42_plane_dot_point",
    "Klein.C42_rotor_log",
    "Klein.C42_rotor_on_plane",
    "Klein.C42_rotor_on_point",
    "Klein.C42_rotor_on_direction",
    "Klein.C42_hi_dp",
    "Klein.C42_hi_dp_bc",
    "Klein.C42_dp",
    "Klein.C42_dp_bc",
    "Klein.C42_gp03",
    "Klein.C42_plane_mul_point",
    "Klein.C42_point_mul_plane",
    "Klein.C42_plane_meet_branch",
    "Klein.C42_branch_meet_plane",
    "Klein.C42_plane_meet_line",
    "Klein.C42_line_meet_plane",
    "Klein.C42_plane_meet_point",
    "Klein.C42_point_meet_plane",
    "Klein.C42_point_join_line",
    "Klein.C42_line_join_point",
    "Klein.C42_point_join_ideal_line",
    "Klein.C42_ideal_line_join_point",
    "Klein.C42_plane_join_point",
    "Klein.C42_point_join_plane",
    "Klein.C42_plane_dot_plane",
    "Klein.C42_plane_dot_ideal_line",
    "Klein.C42_ideal_line_dot_plane",
    "Klein.C42_point_dot_line_iff",
    "Klein.C42_point_dot_line",
    "Klein.C42_line_dot_point",
    "Klein.C42_point_project_line",
    "Klein.C42_point_project_plane",
    "Klein.C42_line_project_point",
    "Klein.C42_plane_project_point",
    "Klein.C42_sw012",
    "Klein.C42_motor_on_plane",
    "Klein.C42_translator_on_plane",
    "Klein.C42_motor_as_mat4x4",
    "Klein.C42_motor_as_mat3x4",
    "Klein.C42_rotor_as_mat4x4_iff",
    "Klein.C42_rotor_as_mat3x4_iff",
    "Klein.C42_ideal_line_squared_ideal_norm",
    "Klein.C42_branch_squared_norm",
    "Klein.C42_line_squared_norm",
    "Klein.C42_plane_norm",
    "Klein.C42_plane_invert",
    "Klein.C42_direction_normalize",
    "Klein.C42_direction_mk3",
    "Klein.C42_branch_normalize",
    "Klein.C42_branch_invert",
    "Klein.C42_line_normalize",
    "Klein.C42_line_invert",
    "Klein.C42_rotor_normalize",
    "Klein.C42_rotor_invert",
    "Klein.C42_motor_normalize",
    "Klein.C42_motor_invert",
    "Klein.C42_plane_div_plane",
    "Klein.C42_branch_div_branch",
    "Klein.C42_rotor_div_rotor",
    "Klein.C42_line_div_line",
    "Klein.C42_motor_div_rotor",
    "Klein.C42_motor_div_motor",
    "Klein.C42_explog_norm",
    "Klein.C42_exp_kernel",
    "Klein.C42_log_kernel",
    "Klein.C42_line_exp",
    "Klein.C42_motor_log",
    "Klein.C42_motor_mkScrew",
    "Klein.C42_branch_exp",
    "Klein.C42_rotor_sqrt",
    "Klein.C42_branch_sqrt",
    "Klein.C42_motor_sqrt",
    "Klein.C42_rotor_mkEuler",
    "Klein.C42_plane_normalize_iff",
    "Klein.C42_plane_normalize_fails",
    "Klein.C42_needs_wf"
   ],
   "note": "The code violates the property: plane::normalize differs between the builds (C42_plane_normalize_fails, exact condition in C42_plane_normalize_iff). Every other function is proved equal in exact arithmetic, under well-formedness where needed; in binary32 the logarithm of a half turn differs (C96_isa_fails)."
  },
  {
   "property": "C43",
   "status": "proved",
   "theorems": [
    "Klein.C43_sw012_array_translate",
    "Klein.C43_sw012_array",
    "Klein.C43_sw012_single_translate",
    "Klein.C43_sw012_single",
    "Klein.C43_sw312_array_translate",
    "Klein.C43_sw312_array",
    "Klein.C43_sw312_single_translate",
    "Klein.C43_sw312_single",
    "Klein.C43_swMM_array_translate_line",
    "Klein.C43_swMM_array_line",
    "Klein.C43_swMM_single_translate_line",
    "Klein.C43_swMM_single_line",
    "Klein.C43_swMM_array_branch",
    "Klein.C43_swMM_single_branch",
    "Klein.C43_swMM_array_translate_branch",
    "Klein.C43_swMM_single_translate_branch",
    "Klein.C43_mat4x4_translate_normalized",
    "Klein.C43_mat4x4_translate",
    "Klein.C43_mat4x4_normalized",
    "Klein.C43_mat4x4"
   ],
   "note": ""
  },
  {
   "property": "C44",
   "status": "proved",
   "theorems": [
    "Klein.C44_rotor_constrain",
    "Klein.C44_motor_constrain",
    "Klein.C44_motor_onPoint_bits",
    "Klein.C44_motor_onPlane_bits",
    "Klein.C44_motor_onLine_bits",
    "Klein.C44_motor_onDirection_bits",
    "Klein.C44_rotor_onPlane_bits",
    "Klein.C44_rotor_onPoint_bits",
    "Klein.C44_rotor_onDirection_bits",
    "Klein.C44_rotor_onLine_bits",
    "Klein.C44_rotor_onBranch_bits",
    "Klein.C44_motor_onPoint_f32",
    "Klein.C44_rotor_onPlane_f32",
    "Klein.C44_motor_onPoint_exact",
    "Klein.C44_rotor_scalar_nonneg",
    "Klein.C44_motor_scalar_nonneg",
    "Klein.C44_rotor_idempotent",
    "Klein.C44_motor_idempotent",
    "Klein.C44_rotor_sign_f32",
    "Klein.C44_motor_sign_f32",
    "Klein.C44_rotor_idempotent_f32",
    "Klein.C44_motor_idempotent_f32",
    "Klein.C44_motor_mag_f32",
    "Klein.C44_example"
   ],
   "note": ""
  },
  {
   "property": "C45",
   "status": "proved",
   "theorems": [
    "Klein.C45_plane_eq",
    "Klein.C45_rotor_eq",
    "Klein.C45_line_eq",
    "Klein.C45_motor_eq",
    "Klein.C45_plane_approx",
    "Klein.C45_rotor_approx",
    "Klein.C45_line_approx",
    "Klein.C45_motor_approx",
    "Klein.C45_plane_eq_real",
    "Klein.C45_rotor_eq_real",
    "Klein.C45_line_eq_real",
    "Klein.C45_motor_eq_real",
    "Klein.C45_motor_approx_real",
    "Klein.C45_plane_approx_real",
    "Klein.C45_motor_eq_symm_f32",
    "Klein.C45_plane_eq_symm_f32",
    "Klein.C45_motor_approx_symm_f32",
    "Klein.C45_plane_approx_symm_f32",
    "Klein.C45_plane_nan_f32",
    "Klein.C45_not_bitwise",
    "Klein.C45_feq_iff",
    "Klein.C45_plane_approx_refl_f32",
    "Klein.C45_plane_approx_inf"
   ],
   "note": ""
  },
  {
   "property": "C46",
   "status": "proved",
   "theorems": [
    "Klein.C46_plane",
    "Klein.C46_point",
    "Klein.C46_origin",
    "Klein.C46_ideal_line",
    "Klein.C46_branch",
    "Klein.C46_line",
    "Klein.C46_motor",
    "Klein.C46_motor_surj",
    "Klein.C46_plane_surj",
    "Klein.C46_point_load_store",
    "Klein.C46_rotor_load_store",
    "Klein.C46_motor_load",
    "Klein.C46_plane_load",
    "Klein.C46_rotor_load",
    "Klein.C46_translator_load",
    "Klein.C46_direction_load",
    "Klein.C46_branch_store",
    "Klein.C46_store_ub",
    "Klein.C46_accessor",
    "Klein.C46_accessor_plane"
   ],
   "note": ""
  },
  {
   "property": "C47",
   "status": "partial",
   "theorems": [
    "Klein.C47_rotor_partial",
    "Klein.C47_ctor_rotor_mv_partial",
    "Klein.C47_ctor_translator_mv_partial",
    "Klein.C47_ctor_rotor_onPoint_partial",
    "Klein.C47_ctor_translator_onPoint_partial",
    "Klein.C47_assign_translator_fails",
    "Klein.C47_assign_translator_degenerate",
    "Klein.C47_assign_translator_onPoint"
   ],
   "note": "The code violates the property: motor::operator=(translator) zeroes p1 instead of setting the scalar to 1 (C47_assign_translator_fails). Proved: assignment from a rotor and both converting constructors."
  },
  {
   "property": "C48",
   "status": "proved",
   "theorems": [
    "Klein.C48_Point_rev",
    "Klein.C48_IdealLine_rev",
    "Klein.C48_Branch_rev",
    "Klein.C48_Line_rev",
    "Klein.C48_Rotor_rev",
    "Klein.C48_Motor_rev",
    "Klein.C48_Direction_neg",
    "Klein.C48_IdealLine_neg",
    "Klein.C48_Branch_neg",
    "Klein.C48_Line_neg",
    "Klein.C48_Rotor_neg",
    "Klein.C48_Motor_neg",
    "Klein.C48_motor_rev_mul",
    "Klein.C48_rotor_rev_mul",
    "Klein.C48_plane_neg",
    "Klein.C48_point_neg",
    "Klein.C48_plane_neg_iff",
    "Klein.C48_motor_rev_rev_f32",
    "Klein.C48_rotor_rev_rev_f32",
    "Klein.C48_line_neg_neg_f32"
   ],
   "note": ""
  },
  {
   "property": "C49",
   "status": "proved",
   "theorems": [
    "Klein.C49_normalize_invert",
    "Klein.C49_direction_ctor",
    "Klein.C49_translator_ctor",
    "Klein.C49_translator_sqrt",
    "Klein.C49_ideal_exp",
    "Klein.C49_rotor_log",
    "Klein.C49_project",
    "Klein.C49_motor_log",
    "Klein.C49_log_unnormalised_fails",
    "Klein.C49_reachable",
    "Klein.C49_ctor",
    "Klein.C49_ideal_line_ops",
    "Klein.C49_branch_ops",
    "Klein.C49_line_ops",
    "Klein.C49_translator_ops",
    "Klein.C49_direction_ops",
    "Klein.C49_plane_meet_plane",
    "Klein.C49_point_join_point",
    "Klein.C49_plane_dot_point",
    "Klein.C49_point_dot_plane",
    "Klein.C49_plane_on_line",
    "Klein.C49_rotor_on_branch",
    "Klein.C49_rotor_on_line",
    "Klein.C49_translator_on_line",
    "Klein.C49_motor_on_line",
    "Klein.C49_rotor_on_direction",
    "Klein.C49_motor_on_direction",
    "Klein.C49_point_mul_point",
    "Klein.C49_point_div_point"
   ],
   "note": "Exact arithmetic. log(motor) is covered for normalised motors, its documented domain; otherwise it puts e0123 in the unused lane (C49_log_unnormalised_fails). Raw register constructors and load are outside, as the headers say."
  },
  {
   "property": "C50",
   "status": "proved",
   "theorems": [
    "Klein.C50_mul_rotor",
    "Klein.C50_mul_translator",
    "Klein.C50_mul_motor",
    "Klein.C50_apply_rotor_plane",
    "Klein.C50_apply_rotor_point",
    "Klein.C50_apply_motor_plane",
    "Klein.C50_apply_motor_point",
    "Klein.C50_apply_motor_origin",
    "Klein.C50_mul_motor_spec",
    "Klein.C50_mul_rotor_spec",
    "Klein.C50_apply_spec",
    "Klein.C50_apply_motor_origin_spec"
   ],
   "note": "Rotor, translator and motor products agree without using any law of arithmetic; the actions in any commutative ring (GLSL leaves rounding unspecified)."
  },
  {
   "property": "C51",
   "status": "partial",
   "theorems": [
    "Klein.C.C51_convert",
    "Klein.C.C51_actions",
    "Klein.C.C51_exp_log",
    "Klein.C.C51_compose_rotors",
    "Klein.C.C51_compose_translators",
    "Klein.C.C51_compose_rotor_translator",
    "Klein.C.C51_compose_motors",
    "Klein.C.C51_compose_translator_rotor_is",
    "Klein.C.C51_compose_translator_rotor_iff",
    "Klein.C.C51_compose_translator_rotor_fails",
    "Klein.C.C51_plane_init",
    "Klein.C.C51_line_init_is",
    "Klein.C.C51_line_init_iff",
    "Klein.C.C51_line_init_fails",
    "Klein.C.C51_point_init_is",
    "Klein.C.C51_point_init_fails",
    "Klein.C.C51_documented_lanes_fail"
   ],
   "note": "Every entry point returns the bits of the C++ operation it forwards to, but three comments in klein.h describe another value: kln_compose_translator_rotor (C51_compose_translator_rotor_fails), kln_line_init (C51_line_init_fails), kln_point_init (C51_point_init_fails); so do the lane orders in the struct comments (C51_documented_lanes_fail)."
  },
  {
   "property": "C52",
   "status": "proved",
   "theorems": [
    "Klein.C52_Plane_assign",
    "Klein.C52_Point_assign",
    "Klein.C52_Direction_assign",
    "Klein.C52_IdealLine_assign",
    "Klein.C52_Branch_assign",
    "Klein.C52_Line_assign",
    "Klein.C52_Rotor_assign",
    "Klein.C52_Translator_assign",
    "Klein.C52_Motor_assign",
    "Klein.C52_Plane_add",
    "Klein.C52_Plane_sub",
    "Klein.C52_Plane_smul",
    "Klein.C52_Point_add",
    "Klein.C52_Point_sub",
    "Klein.C52_Point_smul",
    "Klein.C52_Direction_add",
    "Klein.C52_Direction_sub",
    "Klein.C52_Direction_smul",
    "Klein.C52_IdealLine_add",
    "Klein.C52_IdealLine_sub",
    "Klein.C52_IdealLine_smul",
    "Klein.C52_Branch_add",
    "Klein.C52_Branch_sub",
    "Klein.C52_Branch_smul",
    "Klein.C52_Line_add",
    "Klein.C52_Line_sub",
    "Klein.C52_Line_smul",
    "Klein.C52_Rotor_add",
    "Klein.C52_Rotor_sub",
    "Klein.C52_Rotor_smul",
    "Klein.C52_Motor_add",
    "Klein.C52_Motor_sub",
    "Klein.C52_Motor_smul",
    "Klein.C52_Dual_add",
    "Klein.C52_Dual_sub",
    "Klein.C52_Dual_smul",
    "Klein.C52_Translator_add",
    "Klein.C52_Translator_sub",
    "Klein.C52_Translator_smul",
    "Klein.C52_Plane_sdiv",
    "Klein.C52_Point_sdiv",
    "Klein.C52_Direction_sdiv",
    "Klein.C52_IdealLine_sdiv",
    "Klein.C52_Branch_sdiv",
    "Klein.C52_Line_sdiv",
    "Klein.C52_Rotor_sdiv",
    "Klein.C52_Motor_sdiv",
    "Klein.C52_Dual_sdiv",
    "Klein.C52_motor_sdiv_smul",
    "Klein.C52_example"
   ],
   "note": ""
  },
  {
   "property": "C53",
   "status": "partial",
   "theorems": [
    "Klein.C53_plane_normalize",
    "Klein.C53_plane_normalize_zero",
    "Klein.C53_plane_invert",
    "Klein.C53_plane_invert_zero",
    "Klein.C53_point_normalize",
    "Klein.C53_point_normalize_zero",
    "Klein.C53_point_invert",
    "Klein.C53_point_invert_zero",
    "Klein.C53_direction_normalize",
    "Klein.C53_direction_normalize_zero",
    "Klein.C53_branch_normalize",
    "Klein.C53_branch_normalize_zero",
    "Klein.C53_branch_invert",
    "Klein.C53_branch_invert_zero",
    "Klein.C53_line_normalize",
    "Klein.C53_line_normalize_zero",
    "Klein.C53_line_invert",
    "Klein.C53_line_invert_zero",
    "Klein.C53_rotor_normalize",
    "Klein.C53_rotor_normalize_zero",
    "Klein.C53_rotor_invert",
    "Klein.C53_rotor_invert_zero",
    "Klein.C53_motor_normalize",
    "Klein.C53_motor_normalize_zero",
    "Klein.C53_motor_invert",
    "Klein.C53_motor_invert_zero",
    "Klein.C53_rotor_invert_identity",
    "Klein.C53_plane_div",
    "Klein.C53_plane_div_zero",
    "Klein.C53_point_div",
    "Klein.C53_point_div_zero",
    "Klein.C53_direction_div",
    "Klein.C53_direction_div_zero",
    "Klein.C53_ideal_line_div",
    "Klein.C53_ideal_line_div_zero",
    "Klein.C53_branch_div",
    "Klein.C53_branch_div_zero",
    "Klein.C53_line_div",
    "Klein.C53_line_div_zero",
    "Klein.C53_rotor_div",
    "Klein.C53_rotor_div_zero",
    "Klein.C53_translator_div",
    "Klein.C53_translator_div_zero",
    "Klein.C53_motor_div",
    "Klein.C53_motor_div_zero",
    "Klein.C53_point_mul_point",
    "Klein.C53_point_mul_point_zero",
    "Klein.C53_translator_plane",
    "Klein.C53_plane_div_plane",
    "Klein.C53_branch_div_branch",
    "Klein.C53_rotor_div_rotor",
    "Klein.C53_line_div_line",
    "Klein.C53_motor_div_motor",
    "Klein.C53_rotor_sqrt",
    "Klein.C53_rotor_sqrt_minus_one",
    "Klein.C53_motor_sqrt",
    "Klein.C53_motor_sqrt_minus_one",
    "Klein.C53_rotor_axis",
    "Klein.C53_rotor_axis_zero",
    "Klein.C53_translator_axis",
    "Klein.C53_translator_axis_zero",
    "Klein.C53_plane_norm",
    "Klein.C53_plane_norm_zero",
    "Klein.C53_branch_exp",
    "Klein.C53_branch_exp_zero",
    "Klein.C53_rotor_log",
    "Klein.C53_rotor_log_degenerate",
    "Klein.C53_line_exp",
    "Klein.C53_line_exp_ill_formed",
    "Klein.C53_motor_log",
    "Klein.C53_underflow_fails",
    "Klein.C53_overflow_fails",
    "Klein.C53_subnormal_fails",
    "Klein.C53_f32_branch_exp_zero"
   ],
   "note": "In exact arithmetic with a separate non-finite value (Fp) every listed operation is finite off the degenerate set and agrees there with the real-number model, and has a non-finite lane on it. In binary32 the property is false: C53_underflow_fails, C53_overflow_fails, C53_subnormal_fails. The exponential of a line also needs lane 0 of p1 to be zero (C53_line_exp_ill_formed). Finiteness in binary32 within a safe range is C69, C70, C78 and C79."
  },
  {
   "property": "C54",
   "status": "proved",
   "theorems": [
    "Klein.C54_plane_dot",
    "Klein.C54_line_dot",
    "Klein.C54_rotor_mul",
    "Klein.C54_motor_mul_p1",
    "Klein.C54_motor_mul_p2",
    "Klein.C54_rotor_mul_translator",
    "Klein.C54_translator_mul_rotor",
    "Klein.C54_plane_mul_p1",
    "Klein.C54_plane_mul_p2",
    "Klein.C54_meet_p1",
    "Klein.C54_meet_p2",
    "Klein.C54_join_p2",
    "Klein.C54_join_p1",
    "Klein.C54_meet_line_w",
    "Klein.C54_point_join_line",
    "Klein.C54_motor_point",
    "Klein.C54_rotor_point",
    "Klein.C54_motor_plane",
    "Klein.C54_motor_line_p1",
    "Klein.C54_motor_line_p2",
    "Klein.C54_f32_gamma",
    "Klein.C54_f32_motor_point",
    "Klein.C54_overflow"
   ],
   "note": "For binary32 with round to nearest even (F32.rounded) and for every rounding function on the reals with |rnd x - x| <= u |x| (Rnd.rounded). Stated for finite results; underflow is included. C54_overflow shows that finite inputs do not suffice."
  },
  {
   "property": "C55",
   "status": "partial",
   "theorems": [
    "Klein.Sym.C55_mul_partial",
    "Klein.Sym.C55_mul_fails"
   ],
   "note": "The code violates the property: uint8_t truncation of 1 << index makes mul wrong beyond eight dimensions (C55_mul_fails). Proved against Mathlib's CliffordAlgebra for every signature with p + q + r <= 8 (C55_mul_partial)."
  },
  {
   "property": "C56",
   "status": "partial",
   "theorems": [
    "Klein.Sym.C56_ext_partial",
    "Klein.Sym.C56_ext_disjoint_partial",
    "Klein.Sym.C56_ext_fails",
    "Klein.Sym.C56_ext_encoding_fails",
    "Klein.Sym.C56_dot_partial",
    "Klein.Sym.C56_rev",
    "Klein.Sym.C56_dual",
    "Klein.Sym.C56_dual_dual",
    "Klein.Sym.C56_reg",
    "Klein.Sym.C56_pga_mul",
    "Klein.Sym.C56_pga_ext",
    "Klein.Sym.C56_pga_dot",
    "Klein.Sym.C56_pga_rev"
   ],
   "note": "ext is proved against the Grassmann algebra for up to 30 dimensions; at 31, which the constructor accepts, it executes undefined behaviour (C56_ext_fails) and cannot encode the pseudoscalar (C56_ext_encoding_fails). dot is proved up to eight dimensions (it inherits the defect of mul). rev is proved for every algebra, dual and reg for Cl(3,0,1), the only algebra they accept."
  },
  {
   "property": "C57",
   "status": "partial",
   "theorems": [
    "Klein.Sym.C57_eq_iff",
    "Klein.Sym.C57_irrefl_partial",
    "Klein.Sym.C57_trans_partial",
    "Klein.Sym.C57_total_partial",
    "Klein.Sym.C57_graded_partial",
    "Klein.Sym.C57_defined",
    "Klein.Sym.C57_lt_fails"
   ],
   "note": "The code violates the property when the sum of the exponents leaves int (C57_lt_fails). Proved a strict total order, agreeing with ==, on all monomials whose comparison is defined; C57_defined bounds the exponents for which it is."
  },
  {
   "property": "C58",
   "status": "partial",
   "theorems": [
    "Klein.Sym.C58_add_partial",
    "Klein.Sym.C58_neg",
    "Klein.Sym.C58_sub_partial",
    "Klein.Sym.C58_mul_partial",
    "Klein.Sym.C58_push_partial",
    "Klein.Sym.C58_mon_mul_partial",
    "Klein.Sym.C58_mon_push_partial",
    "Klein.Sym.C58_defined",
    "Klein.Sym.C58_mul_fails",
    "Klein.Sym.C58_eval_partial",
    "Klein.Sym.C58_canonical_partial",
    "Klein.Sym.C58_unique",
    "Klein.Sym.C58_comm_partial",
    "Klein.Sym.C58_sub_self_partial",
    "Klein.Sym.C58_push_zero_fails"
   ],
   "note": "Proved in the Laurent polynomial ring over any commutative coefficient ring (coefficients are floats in the code, rounding not modelled here) whenever the exponents stay in int, which C58_defined guarantees; C58_mul_fails is the overflow. push does store a zero coefficient when given one (C58_push_zero_fails)."
  },
  {
   "property": "C59",
   "status": "partial",
   "theorems": [
    "Klein.Sym.Mv.C59_pga_ext_partial",
    "Klein.Sym.Mv.C59_pga_dot_partial",
    "Klein.Sym.Mv.C59_pga_rev",
    "Klein.Sym.Mv.C59_add_partial",
    "Klein.Sym.Mv.C59_sub_partial",
    "Klein.Sym.Mv.C59_neg",
    "Klein.Sym.Mv.C59_push_partial",
    "Klein.Sym.Mv.C59_rev",
    "Klein.Sym.Mv.C59_mul_partial",
    "Klein.Sym.Mv.C59_ext_partial",
    "Klein.Sym.Mv.C59_dot_partial",
    "Klein.Sym.Mv.C59_reg_partial",
    "Klein.Sym.Mv.C59_pga_mul_partial",
    "Klein.Sym.Mv.C59_add_defined",
    "Klein.Sym.Mv.C59_mul_defined",
    "Klein.Sym.Mv.C59_ext_defined",
    "Klein.Sym.Mv.C59_reg_defined",
    "Klein.Sym.Mv.C59_null_fails",
    "Klein.Sym.Mv.C59_add_canonical_partial",
    "Klein.Sym.Mv.C59_prod_canonical_partial",
    "Klein.Sym.Mv.C59_unique",
    "Klein.Sym.Mv.C59_sub_self_partial"
   ],
   "note": "Proved with coefficients in the Laurent polynomial ring: products up to eight dimensions (C55_mul_fails beyond), exterior products up to 30, regressive products in Cl(3,0,1), for which alone the dual table is written. C59_*_defined give definedness; C59_null_fails is the product of a multivector without an algebra."
  },
  {
   "property": "C60",
   "status": "partial",
   "theorems": [
    "Klein.Sym.C60_bound",
    "Klein.Sym.C60_diverges_iff",
    "Klein.Sym.C60_fails",
    "Klein.Sym.C60_lexes",
    "Klein.Sym.C60_eof",
    "Klein.Sym.C60_complete_partial",
    "Klein.Sym.C60_terminates_partial",
    "Klein.Sym.C60_charset"
   ],
   "note": "The code violates the property: a last character that is a letter or unknown, or any unknown character, makes the tokenizer loop for ever (C60_fails; exact condition in C60_diverges_iff). Proved: what is accepted (C60_lexes, C60_complete_partial), that token lists end in one eof, and termination for the known characters with no letter at the end."
  },
  {
   "property": "C61",
   "status": "partial",
   "theorems": [
    "Klein.Sym.C61_exact",
    "Klein.Sym.C61_partial",
    "Klein.Sym.C61_never_throws",
    "Klein.Sym.C61_fails"
   ],
   "note": "The code violates the property: 32 or more digits write outside the buffer before the check can throw (C61_fails, C61_never_throws). C61_exact gives the exact condition."
  },
  {
   "property": "C62",
   "status": "proved",
   "theorems": [
    "Klein.Sym.C62_meaning_partial",
    "Klein.Sym.C62_denotes_partial",
    "Klein.Sym.C62_safe",
    "Klein.Sym.C62_parse_safe",
    "Klein.Sym.C62_sound",
    "Klein.Sym.C62_complete",
    "Klein.Sym.C62_unambiguous"
   ],
   "note": "Safety and termination on every token list ending in eof, soundness and completeness with respect to the grammar with its precedence and association, and the meaning of the trees in Cl(3,0,1) as long as the exponents stay in int. Recursion depth (stack) is not modelled."
  },
  {
   "property": "C63",
   "status": "partial",
   "theorems": [
    "Klein.Sym.C63_partial",
    "Klein.Sym.C63_rejected_partial",
    "Klein.Sym.C63_fails",
    "Klein.Sym.C63_range_fails"
   ],
   "note": "The code violates the property: the digits 8 and 9 are lost (C63_fails) and indices outside the algebra are accepted (C63_range_fails). Proved for indices of algebras of at most 8 dimensions."
  },
  {
   "property": "C64",
   "status": "partial",
   "theorems": [
    "Klein.Sym.C64_exact",
    "Klein.Sym.C64_partial",
    "Klein.Sym.C64_fails"
   ],
   "note": "The code violates the property: everything after an unexpected parenthesis is ignored (C64_fails). C64_exact says exactly what is read; C64_partial covers lines without parentheses."
  },
  {
   "property": "C65",
   "status": "partial",
   "theorems": [
    "Klein.Sym.C65_exact",
    "Klein.Sym.C65_partial",
    "Klein.Sym.C65_fails"
   ],
   "note": "The code violates the property: a # or . anywhere decides (C65_fails, exact behaviour in C65_exact). C65_partial covers lines without # or . after their first character."
  },
  {
   "property": "C66",
   "status": "partial",
   "theorems": [
    "Klein.Sym.C66_blade",
    "Klein.Sym.C66_partial",
    "Klein.Sym.C66_showInt",
    "Klein.Sym.C66_fails"
   ],
   "note": "The code violates the property: scalars +-1 are printed as nothing or as a bare sign, and variables are printed in a form that is rejected or read as another expression (C66_fails). C66_partial covers numeric multivectors whose scalar is not +-1. Printing of floats is a parameter."
  },
  {
   "property": "C67",
   "status": "proved",
   "theorems": [
    "Klein.C67_line_squared",
    "Klein.C67_branch_squared",
    "Klein.C67_ideal_squared",
    "Klein.C67_ideal_null",
    "Klein.C67_line",
    "Klein.C67_branch",
    "Klein.C67_ideal",
    "Klein.C67_plane"
   ],
   "note": "Exact arithmetic; plane::norm within 2.1e-7 relative, from the specified accuracy of rsqrtps. The norm of a plane with zero normal is 0 * rsqrt(0), NaN on hardware, and is excluded."
  },
  {
   "property": "C68",
   "status": "proved",
   "theorems": [
    "Klein.C68_plane",
    "Klein.C68_injective",
    "Klein.C68_plane_mul_plane",
    "Klein.C68_motor_mul_motor",
    "Klein.C68_rotor_mul_rotor",
    "Klein.C68_plane_on_plane",
    "Klein.C68_motor_on_plane",
    "Klein.C68_motor_on_line",
    "Klein.C68_motor_on_point",
    "Klein.C68_two_reflections",
    "Klein.C68_plane_meet_plane",
    "Klein.C68_three_planes",
    "Klein.C68_four_planes",
    "Klein.C68_point_join_point"
   ],
   "note": ""
  },
  {
   "property": "C69",
   "status": "proved",
   "theorems": [
    "Klein.C69_plane_mul_plane",
    "Klein.C69_plane_mul_point",
    "Klein.C69_point_mul_plane",
    "Klein.C69_branch_mul_branch",
    "Klein.C69_line_mul_line",
    "Klein.C69_rotor_mul_rotor",
    "Klein.C69_rotor_mul_translator",
    "Klein.C69_translator_mul_rotor",
    "Klein.C69_translator_mul_translator",
    "Klein.C69_rotor_mul_motor",
    "Klein.C69_motor_mul_rotor",
    "Klein.C69_translator_mul_motor",
    "Klein.C69_motor_mul_translator",
    "Klein.C69_motor_mul_motor",
    "Klein.C69_plane_meet_plane",
    "Klein.C69_plane_meet_branch",
    "Klein.C69_plane_meet_ideal_line",
    "Klein.C69_plane_meet_line",
    "Klein.C69_point_join_point",
    "Klein.C69_point_join_line",
    "Klein.C69_point_join_branch",
    "Klein.C69_point_join_ideal_line",
    "Klein.C69_plane_dot_line",
    "Klein.C69_line_dot_plane",
    "Klein.C69_plane_dot_ideal_line",
    "Klein.C69_ideal_line_dot_plane",
    "Klein.C69_plane_dot_point",
    "Klein.C69_point_dot_line",
    "Klein.C69_point_project_line",
    "Klein.C69_point_project_plane",
    "Klein.C69_line_project_plane",
    "Klein.C69_plane_project_point",
    "Klein.C69_line_project_point",
    "Klein.C69_plane_project_line",
    "Klein.C69_plane_on_plane",
    "Klein.C69_plane_on_line",
    "Klein.C69_plane_on_point",
    "Klein.C69_rotor_on_plane",
    "Klein.C69_rotor_on_branch",
    "Klein.C69_rotor_on_line",
    "Klein.C69_rotor_on_point",
    "Klein.C69_rotor_on_direction",
    "Klein.C69_translator_on_line",
    "Klein.C69_translator_on_point",
    "Klein.C69_motor_on_plane",
    "Klein.C69_motor_on_line",
    "Klein.C69_motor_on_point",
    "Klein.C69_motor_on_direction",
    "Klein.C69_plane_dot_plane",
    "Klein.C69_line_dot_line",
    "Klein.C69_point_dot_point",
    "Klein.C69_plane_meet_point",
    "Klein.C69_point_meet_plane",
    "Klein.C69_line_meet_line",
    "Klein.C69_branch_meet_ideal_line",
    "Klein.C69_plane_join_point",
    "Klein.C69_point_join_plane",
    "Klein.C69_f32_motor_point_error",
    "Klein.C69_overflows"
   ],
   "note": "C69_overflows shows that the range cannot be dropped. Operations through rcpps/rsqrtps are not included (C70)."
  },
  {
   "property": "C70",
   "status": "proved",
   "theorems": [
    "Klein.C70_motor_normalize_p2",
    "Klein.C70_line_normalize_p2",
    "Klein.C70_plane_normalize_d_sse41",
    "Klein.C70_plane_normalize_d_sse3",
    "Klein.C70_hw32_contract",
    "Klein.C70_point_w_fails",
    "Klein.C70_contract_inhabited",
    "Klein.C70_branch_normalize",
    "Klein.C70_line_normalize_p1",
    "Klein.C70_direction_normalize",
    "Klein.C70_rotor_normalize",
    "Klein.C70_motor_normalize_p1",
    "Klein.C70_plane_normalize",
    "Klein.C70_point_normalize",
    "Klein.C70_rotor_normalize_unit",
    "Klein.C70_plane_normalize_unit",
    "Klein.C70_branch_normalize_unit",
    "Klein.C70_direction_normalize_unit",
    "Klein.C70_point_normalize_weight"
   ],
   "note": "The moment lanes of lines and motors are within 3.7e-6 of the exact normalisation relative to the bound of the moment over the norm; lane 0 of planes is what the code computes, not the quotient (C25). C70_contract_inhabited: the assumption on the estimates can be met, for instance by correctly rounded estimates (C70_hw32_contract); with them the documented 'w is exactly 1 when normalized' is false (C70_point_w_fails)."
  },
  {
   "property": "C71",
   "status": "proved",
   "theorems": [
    "Klein.C71_gp_plane_plane",
    "Klein.C71_gp_plane_point",
    "Klein.C71_gp_branch_branch",
    "Klein.C71_gp_line_line",
    "Klein.C71_gp_point_plane",
    "Klein.C71_gp_rotor_translator",
    "Klein.C71_gp_translator_rotor",
    "Klein.C71_gp_motor_rotor",
    "Klein.C71_gp_rotor_motor",
    "Klein.C71_gp_motor_translator",
    "Klein.C71_gp_translator_motor",
    "Klein.C71_gp_motor_motor",
    "Klein.C71_ip_plane_plane",
    "Klein.C71_ip_plane_line",
    "Klein.C71_ip_plane_ideal_line",
    "Klein.C71_ip_plane_point",
    "Klein.C71_ip_line_plane",
    "Klein.C71_ip_line_line",
    "Klein.C71_ip_line_point",
    "Klein.C71_ip_point_plane",
    "Klein.C71_ip_point_line",
    "Klein.C71_ip_point_point",
    "Klein.C71_ip_project_point_line",
    "Klein.C71_ep_plane_plane",
    "Klein.C71_ep_plane_line",
    "Klein.C71_ep_plane_ideal_line",
    "Klein.C71_ep_plane_point",
    "Klein.C71_ep_line_plane",
    "Klein.C71_ep_line_line",
    "Klein.C71_ep_line_ideal_line",
    "Klein.C71_ep_ideal_line_plane",
    "Klein.C71_ep_point_plane",
    "Klein.C71_rp_z_line",
    "Klein.C71_rp_y_line",
    "Klein.C71_rp_x_line",
    "Klein.C71_rp_plane",
    "Klein.C71_metric_point_point",
    "Klein.C71_sum_points",
    "Klein.C71_sw_reflect_plane",
    "Klein.C71_sw_reflect_line",
    "Klein.C71_sw_reflect_point",
    "Klein.C71_sw_rotor_line",
    "Klein.C71_sw_translator_line",
    "Klein.C71_sw_motor_plane",
    "Klein.C71_sw_motor_point",
    "Klein.C71_sw_motor_line",
    "Klein.C71_sw_motor_matrix",
    "Klein.C71_glsl_rr_mul",
    "Klein.C71_glsl_mm_mul",
    "Klein.C71_glsl_rotor_plane",
    "Klein.C71_glsl_motor_plane",
    "Klein.C71_glsl_rotor_point",
    "Klein.C71_glsl_motor_point",
    "Klein.C71_glsl_motor_origin",
    "Klein.C71_sw_motor_plane_variadic",
    "Klein.C71_sw_motor_point_variadic",
    "Klein.C71_sw_motor_line_variadic",
    "Klein.C71_sse_rcp_nr1",
    "Klein.C71_gp_plane_sqrt",
    "Klein.C71_gp_plane_div",
    "Klein.C71_gp_line_normalize",
    "Klein.C71_gp_branch_sqrt",
    "Klein.C71_gp_branch_div",
    "Klein.C71_gp_line_sqrt",
    "Klein.C71_gp_line_div",
    "Klein.C71_gp_point_point",
    "Klein.C71_gp_point_div",
    "Klein.C71_gp_translator_div",
    "Klein.C71_gp_motor_div",
    "Klein.C71_ip_project_normalize",
    "Klein.C71_main_planes",
    "Klein.C71_sw_translator_point",
    "Klein.C71_sw_simd",
    "Klein.C71_sw_normalize_motor",
    "Klein.C71_sw_normalize_rotor",
    "Klein.C71_sw_motor_matrix_3x4",
    "Klein.C71_metric_point_plane",
    "Klein.C71_metric_point_line",
    "Klein.TrigTests.C71_rotor_exp_log",
    "Klein.TrigTests.C71_rotor_sqrt",
    "Klein.TrigTests.C71_motor_exp_log",
    "Klein.TrigTests.C71_motor_sqrt_sqrt",
    "Klein.TrigTests.C71_motor_slerp",
    "Klein.TrigTests.C71_motor_blend",
    "Klein.TrigTests.C71_translator_motor_log",
    "Klein.TrigTests.C71_ideal_motor_step",
    "Klein.TrigTests.C71_rotor_point",
    "Klein.TrigTests.C71_construct_motor",
    "Klein.TrigTests.C71_construct_motor_screw",
    "Klein.TrigTests.C71_motor_origin",
    "Klein.TrigTests.C71_motor_sqrt",
    "Klein.TrigTests.C71_rotor_sqrt_2",
    "Klein.TrigTests.C71_rotor_constrain",
    "Klein.TrigTests.C71_motor_constrain",
    "Klein.TrigTests.C71_euler_angles",
    "Klein.TrigTests.C71_euler_angles_precision",
    "Klein.TrigTests.C71_reference",
    "Klein.TrigTests.C71_reference_values"
   ],
   "note": "The exact comparison e01 == 0 of the motor/motor division test depends on the estimator (2^-24 with correctly rounded estimates) and is replaced by doctest::Approx."
  },
  {
   "property": "C72",
   "status": "proved",
   "theorems": [
    "Klein.Sym.C72_monomial",
    "Klein.Sym.C72_sum",
    "Klein.Sym.C72_sum_one",
    "Klein.Sym.C72_sum_one_two",
    "Klein.Sym.C72_product",
    "Klein.Sym.C72_ga",
    "Klein.Sym.C72_add",
    "Klein.Sym.C72_sub",
    "Klein.Sym.C72_parse_product",
    "Klein.Sym.C72_exterior",
    "Klein.Sym.C72_regressive",
    "Klein.Sym.C72_inner",
    "Klein.Sym.C72_reverse",
    "Klein.Sym.C72_rotor"
   ],
   "note": "Coefficients are integers instead of float; those that occur are exactly representable (C86)."
  },
  {
   "property": "C73",
   "status": "partial",
   "theorems": [
    "Klein.Sym.C73_line4",
    "Klein.Sym.C73_line7",
    "Klein.Sym.C73_line10",
    "Klein.Sym.C73_line11",
    "Klein.Sym.C73_line14",
    "Klein.Sym.C73_line17",
    "Klein.Sym.C73_line20",
    "Klein.Sym.C73_line23",
    "Klein.Sym.C73_line26",
    "Klein.Sym.C73_line29",
    "Klein.Sym.C73_line32",
    "Klein.Sym.C73_line33",
    "Klein.Sym.C73_line36",
    "Klein.Sym.C73_line37",
    "Klein.Sym.C73_line40",
    "Klein.Sym.C73_line43",
    "Klein.Sym.C73_line46",
    "Klein.Sym.C73_line49",
    "Klein.Sym.C73_line52",
    "Klein.Sym.C73_line55",
    "Klein.Sym.C73_line58",
    "Klein.Sym.C73_line61",
    "Klein.Sym.C73_line64",
    "Klein.Sym.C73_line67",
    "Klein.Sym.C73_line70",
    "Klein.Sym.C73_line73",
    "Klein.Sym.C73_line76",
    "Klein.Sym.C73_line79",
    "Klein.Sym.C73_line82",
    "Klein.Sym.C73_line85",
    "Klein.Sym.C73_line88",
    "Klein.Sym.C73_line91",
    "Klein.Sym.C73_line94",
    "Klein.Sym.C73_line97",
    "Klein.Sym.C73_line100",
    "Klein.Sym.C73_line103",
    "Klein.Sym.C73_line106",
    "Klein.Sym.C73_line109",
    "Klein.Sym.C73_line112",
    "Klein.Sym.C73_line115",
    "Klein.Sym.C73_line118",
    "Klein.Sym.C73_line121",
    "Klein.Sym.C73_line124",
    "Klein.Sym.C73_line127",
    "Klein.Sym.C73_line130",
    "Klein.Sym.C73_line133",
    "Klein.Sym.C73_line136",
    "Klein.Sym.C73_line139",
    "Klein.Sym.C73_line142",
    "Klein.Sym.C73_line145",
    "Klein.Sym.C73_line148",
    "Klein.Sym.C73_line151",
    "Klein.Sym.C73_line154",
    "Klein.Sym.C73_line157",
    "Klein.Sym.C73_line160",
    "Klein.Sym.C73_line163",
    "Klein.Sym.C73_line166",
    "Klein.Sym.C73_line169",
    "Klein.Sym.C73_line172",
    "Klein.Sym.C73_line175",
    "Klein.Sym.C73_line178",
    "Klein.Sym.C73_line181",
    "Klein.Sym.C73_line184",
    "Klein.Sym.C73_line187",
    "Klein.Sym.C73_line190",
    "Klein.Sym.C73_line193",
    "Klein.Sym.C73_line196",
    "Klein.Sym.C73_line199",
    "Klein.Sym.C73_line202",
    "Klein.Sym.C73_line205",
    "Klein.Sym.C73_line208",
    "Klein.Sym.C73_line211",
    "Klein.Sym.C73_line214",
    "Klein.Sym.C73_line217",
    "Klein.Sym.C73_line220",
    "Klein.Sym.C73_line223",
    "Klein.Sym.C73_line226",
    "Klein.Sym.C73_line23_fails",
    "Klein.Sym.C73_line229",
    "Klein.Sym.C73_line232",
    "Klein.Sym.C73_line235",
    "Klein.Sym.C73_line238",
    "Klein.Sym.C73_line244",
    "Klein.Sym.C73_line247",
    "Klein.Sym.C73_line250",
    "Klein.Sym.C73_line253",
    "Klein.Sym.C73_line256",
    "Klein.Sym.C73_line259",
    "Klein.Sym.C73_line262",
    "Klein.Sym.C73_line265",
    "Klein.Sym.C73_line268",
    "Klein.Sym.C73_line271",
    "Klein.Sym.C73_line274",
    "Klein.Sym.C73_line277",
    "Klein.Sym.C73_line280",
    "Klein.Sym.C73_line283",
    "Klein.Sym.C73_line286",
    "Klein.Sym.C73_line289",
    "Klein.Sym.C73_line292",
    "Klein.Sym.C73_line295",
    "Klein.Sym.C73_line298",
    "Klein.Sym.C73_line301",
    "Klein.Sym.C73_line303",
    "Klein.Sym.C73_line306",
    "Klein.Sym.C73_line308",
    "Klein.Sym.C73_line311",
    "Klein.Sym.C73_line313",
    "Klein.Sym.C73_line289_fails",
    "Klein.Sym.C73_line241"
   ],
   "note": "Line 23 (line * line) differs from the library, the defect of C05 (C73_line23_fails). Line 289 (motor(origin)) agrees for normalised motors only (C73_line289_fails). Lines 311 and 313 are minus the library's projections and line 301 is the projection only if the line satisfies b.c = 0. Coefficients are integers; C104 has the same results with float."
  },
  {
   "property": "C74",
   "status": "partial",
   "theorems": [
    "Klein.C74_slerp_zero",
    "Klein.C74_slerp_normalised",
    "Klein.C74_slerp_add",
    "Klein.C74_slerp_speed",
    "Klein.C74_slerp_one_partial",
    "Klein.C74_slerp_one_neg",
    "Klein.C74_slerp_half_turn_fails",
    "Klein.C74_slerp_translation_fails",
    "Klein.C74_slerp_angle",
    "Klein.C74_slerp_rotor",
    "Klein.C74_lerp_norm",
    "Klein.C74_lerp_norm_doc_fails",
    "Klein.C74_lerp_normed_iff",
    "Klein.C74_lerp_iff_doc_fails",
    "Klein.C74_nlerp_pos",
    "Klein.C74_nlerp_normalised",
    "Klein.C74_nlerp_ends",
    "Klein.C74_example",
    "Klein.C74_nlerp_speed_fails"
   ],
   "note": "Violated: between motors a half turn apart slerp does not move at all (C74_slerp_half_turn_fails); if b ~a is a translation with scalar -1 it ends at the opposite displacement (C74_slerp_translation_fails); if the scalar of b ~a is negative it goes the long way round (C74_slerp_angle); the documented norm of the linear interpolation and the documented criterion are wrong (C74_lerp_norm_doc_fails, C74_lerp_iff_doc_fails). Proved: everything else, with the right formula and criterion; nlerp is undefined only half-way between opposite rotor parts."
  },
  {
   "property": "C75",
   "status": "partial",
   "theorems": [
    "Klein.Doc.C75_product",
    "Klein.Doc.C75_inner",
    "Klein.Doc.C75_wedge",
    "Klein.Doc.C75_vee",
    "Klein.Doc.C75_plane_sum",
    "Klein.Doc.C75_reading_fails",
    "Klein.Doc.C75_meet_planes",
    "Klein.Doc.C75_meet_parallel",
    "Klein.Doc.C75_meet_line",
    "Klein.Doc.C75_meet_line_fails",
    "Klein.Doc.C75_join",
    "Klein.Doc.C75_dot",
    "Klein.Doc.C75_distance",
    "Klein.Doc.C75_project",
    "Klein.Doc.C75_project_formula_fails",
    "Klein.Doc.C75_project_code",
    "Klein.Doc.C75_project_line",
    "Klein.Doc.C75_point_line",
    "Klein.Doc.C75_point_line_project",
    "Klein.Doc.C75_plane_angle",
    "Klein.Doc.C75_plane_angle_example",
    "Klein.Doc.C75_conjugation"
   ],
   "note": "Violated: the workbook reads the plane 3 e0 + e1 + e3 as x + z - 3 = 0 (C75_reading_fails), and two of its results do not follow from its inputs (C75_meet_line_fails, C75_project_formula_fails). Proved: the other calculations, and the formulas in general."
  },
  {
   "property": "C76",
   "status": "proved",
   "theorems": [
    "Klein.C76_surjective",
    "Klein.C76_rigid_iff",
    "Klein.C76_injective",
    "Klein.C76_isometry",
    "Klein.C76_rotor"
   ],
   "note": ""
  },
  {
   "property": "C77",
   "status": "partial",
   "theorems": [
    "Klein.C77_parent",
    "Klein.C77_order",
    "Klein.C77_reverse_partial",
    "Klein.C77_commuting_partial",
    "Klein.C77_order_fails",
    "Klein.C77_uint8_fails",
    "Klein.C77_uint8_partial",
    "Klein.C77_in_place_fails"
   ],
   "note": "Violated: the loop multiplies the poses in the opposite order (C77_order, C77_order_fails), its calls are undefined behaviour (C77_in_place_fails), and a skeleton of 256 joints does not fit its uint8_t (C77_uint8_fails). Proved: with the joints visited from last to first, and calls that may work in place, the documented pose (C77_reverse_partial)."
  },
  {
   "property": "C78",
   "status": "proved",
   "theorems": [
    "Klein.C78_motor_invert_p1",
    "Klein.C78_motor_invert_p2",
    "Klein.C78_line_invert_p1",
    "Klein.C78_line_invert_p2",
    "Klein.C78_branch_invert",
    "Klein.C78_plane_invert",
    "Klein.C78_plane_invert_d",
    "Klein.C78_rotor_invert",
    "Klein.C78_point_invert",
    "Klein.C78_plane_sdiv",
    "Klein.C78_point_sdiv",
    "Klein.C78_direction_sdiv",
    "Klein.C78_ideal_line_sdiv",
    "Klein.C78_branch_sdiv",
    "Klein.C78_line_sdiv",
    "Klein.C78_rotor_sdiv",
    "Klein.C78_translator_sdiv",
    "Klein.C78_motor_sdiv",
    "Klein.C78_line_squared_norm",
    "Klein.C78_branch_squared_norm",
    "Klein.C78_ideal_squared_norm",
    "Klein.C78_line_norm",
    "Klein.C78_branch_norm",
    "Klein.C78_ideal_norm",
    "Klein.C78_plane_norm",
    "Klein.C78_rotor_sqrt",
    "Klein.C78_branch_sqrt",
    "Klein.C78_motor_sqrt_p1",
    "Klein.C78_motor_sqrt_p2"
   ],
   "note": "The comparison is with the code's formula in exact arithmetic; that the formula is the inverse is C26 to C28. The inverse of a rotor as coded omits the scalar (C27) and that of a point has the wrong sign (C28)."
  },
  {
   "property": "C79",
   "status": "proved",
   "theorems": [
    "Klein.C79_motor_log_small_p1",
    "Klein.C79_motor_log_small_p2",
    "Klein.C79_contract_inhabited",
    "Klein.C79_branch_exp",
    "Klein.C79_line_exp_p1",
    "Klein.C79_line_exp_p2",
    "Klein.C79_motor_log_p1",
    "Klein.C79_motor_log_p2",
    "Klein.C79_rotor_log",
    "Klein.C79_rotor_mkAxis",
    "Klein.C79_translator_mkAxis",
    "Klein.C79_branch_exp_unit",
    "Klein.C79_rotor_mkEuler"
   ],
   "note": "The comparison is with the code's formula in exact arithmetic; what the formula computes is C33 to C37. The assumptions on the C library (Libm.Contract32) are satisfiable (C79_contract_inhabited). For a scalar below 1e-6 the pseudoscalar has to be at least 2^-24 in absolute value; the logarithm of a half turn is C96. motor(ang, d, line) is C95."
  },
  {
   "property": "C80",
   "status": "proved",
   "theorems": [
    "Klein.C80_screw",
    "Klein.C80_either_order",
    "Klein.C80_translation",
    "Klein.C80_chasles",
    "Klein.C80_axis_unique"
   ],
   "note": ""
  },
  {
   "property": "C81",
   "status": "proved",
   "theorems": [
    "Klein.C81_point_quat",
    "Klein.C81_rotor_mul",
    "Klein.C81_rotor",
    "Klein.C81_motor_mul",
    "Klein.C81_motor",
    "Klein.C81_normed",
    "Klein.C81_rotor_motor",
    "Klein.C81_range",
    "Klein.C81_ker",
    "Klein.C81_hom",
    "Klein.C81_plane_quat",
    "Klein.C81_line_quat",
    "Klein.Flats32.C81_meet"
   ],
   "note": ""
  },
  {
   "property": "C82",
   "status": "partial",
   "theorems": [
    "Klein.C82_exp_smul",
    "Klein.C82_motor_pow_partial",
    "Klein.C82_motor_pow_neg_partial",
    "Klein.C82_motor_root_partial",
    "Klein.C82_half_turn_fails",
    "Klein.C82_branch_exp_smul",
    "Klein.C82_rotor_pow",
    "Klein.C82_translator_pow",
    "Klein.C82_scale"
   ],
   "note": "Violated at half turns without translation, where log is 0 and every power and root the identity (C82_half_turn_fails). Proved: for all other motors with a rotation part and a scalar of at least 1e-6 or a negative e0123, for translations with scalar 1 (Motor.LogGood), for all unit rotors but 1 and -1, and for all translators."
  },
  {
   "property": "C83",
   "status": "partial",
   "theorems": [
    "Klein.C83_weighted_line",
    "Klein.C83_action",
    "Klein.C83_fails"
   ],
   "note": "Violated by the factor: the rotation and translation are twice the parts, not half of them (C83_fails). Proved: the motion is the screw about the line with those amounts (C83_weighted_line, C83_action)."
  },
  {
   "property": "C84",
   "status": "partial",
   "theorems": [
    "Klein.C84_two_reflections",
    "Klein.C84_parallel",
    "Klein.C84_rotation",
    "Klein.C84_rotation_action",
    "Klein.C84_branch_partial",
    "Klein.C84_branch_rev",
    "Klein.C84_branch_iff",
    "Klein.C84_branch_fails",
    "Klein.C84_line",
    "Klein.C84_line_partial",
    "Klein.C84_line_fails",
    "Klein.C84_project_partial",
    "Klein.C84_project_sign",
    "Klein.C84_project_fails",
    "Klein.C84_perpendicular",
    "Klein.C84_common_normal"
   ],
   "note": "Violated: for branches the documented ~sqrt(a * b) takes b to a only if they are orthogonal (C84_branch_iff, C84_branch_fails), sqrt(a * b) for lines inherits the wrong line * line (C84_line_fails), and project(plane, line) has the orientation that minimises the inner product (C84_project_fails). Proved: the reflections, translation and rotation; sqrt(a * b) takes b to -a for branches, and for lines whenever the product is right (C84_line, C84_line_partial); the common normal; the projection maximises the magnitude; the perpendicular."
  },
  {
   "property": "C85",
   "status": "partial",
   "theorems": [
    "Klein.Sym.C85_mon_mul",
    "Klein.Sym.C85_poly_add_partial",
    "Klein.Sym.C85_poly_mul",
    "Klein.Sym.C85_mv_add_partial",
    "Klein.Sym.C85_mv_mul",
    "Klein.Sym.C85_mv_sub_fails",
    "Klein.Sym.C85_add_fails"
   ],
   "note": "Violated: m -= m erases the element its loop stands on, undefined behaviour for every non-zero m (C85_mv_sub_fails); p += p and m += m do so if a zero coefficient is stored (C85_add_fails). Proved: every other assignment, and += for canonical operands over coefficients in which f + f = 0 only for f = 0."
  },
  {
   "property": "C86",
   "status": "proved",
   "theorems": [
    "Klein.Sym.C86_signs",
    "Klein.Sym.C86_parse_exact",
    "Klein.Sym.C86_defined",
    "Klein.Sym.C86_poly",
    "Klein.Sym.C86_mv",
    "Klein.Sym.C86_parse",
    "Klein.Sym.C86_fails"
   ],
   "note": "Grammar and definedness hold without restriction; exactness is stated under the bound 2^24, past which 16777216 + 1 - 16777216 is zero (C86_fails)."
  },
  {
   "property": "C87",
   "status": "partial",
   "theorems": [
    "Klein.Sym.C87_lines",
    "Klein.Sym.C87_text",
    "Klein.Sym.C87_independent",
    "Klein.Sym.C87_ends_iff",
    "Klein.Sym.C87_reply",
    "Klein.Sym.C87_session_partial",
    "Klein.Sym.C87_fails"
   ],
   "note": "Violated: a line with a trailing comment never ends, so that no later line is answered, and a line with a decimal point is not answered (C87_fails). Proved: the lines and their order, independence, that a session ends if and only if the answer to every line does, and the answers to blank lines, comments, commands and expressions without # and . (C87_session_partial)."
  },
  {
   "property": "C88",
   "status": "partial",
   "theorems": [
    "Klein.Sym.C88_hash",
    "Klein.Sym.C88_step_inj",
    "Klein.Sym.C88_hash_single",
    "Klein.Sym.C88_tokens",
    "Klein.Sym.C88_factor_partial",
    "Klein.Sym.C88_fails"
   ],
   "note": "Violated: printing an element token leaves std::hex in force, after which exponents are printed in base 16 (C88_fails). Proved: the hash, the text of the tokens, and exponents on a stream in base 10."
  },
  {
   "property": "C89",
   "status": "proved",
   "theorems": [
    "Klein.C89_literals",
    "Klein.C89_bits",
    "Klein.C89_closest",
    "Klein.C89_relations",
    "Klein.C89_pi_above"
   ],
   "note": ""
  },
  {
   "property": "C90",
   "status": "proved",
   "theorems": [
    "Klein.Products32.C90_plane_on_plane",
    "Klein.Products32.C90_plane_on_line",
    "Klein.Products32.C90_plane_on_point",
    "Klein.Products32.C90_rotor_on_plane",
    "Klein.Products32.C90_rotor_on_branch",
    "Klein.Products32.C90_rotor_on_line",
    "Klein.Products32.C90_rotor_on_point",
    "Klein.Products32.C90_rotor_on_direction",
    "Klein.Products32.C90_translator_on_line",
    "Klein.Products32.C90_translator_on_point",
    "Klein.Products32.C90_motor_on_plane",
    "Klein.Products32.C90_motor_on_line",
    "Klein.Products32.C90_motor_on_point",
    "Klein.Products32.C90_motor_on_origin",
    "Klein.Products32.C90_motor_on_direction",
    "Klein.Products32.C90_plane_mul_plane",
    "Klein.Products32.C90_plane_mul_point",
    "Klein.Products32.C90_point_mul_plane",
    "Klein.Products32.C90_branch_mul_branch",
    "Klein.Products32.C90_line_mul_line",
    "Klein.Products32.C90_rotor_mul_rotor",
    "Klein.Products32.C90_dual_mul_line",
    "Klein.Products32.C90_line_mul_dual",
    "Klein.Products32.C90_rotor_mul_translator",
    "Klein.Products32.C90_translator_mul_rotor",
    "Klein.Products32.C90_translator_mul_translator",
    "Klein.Products32.C90_rotor_mul_motor",
    "Klein.Products32.C90_motor_mul_rotor",
    "Klein.Products32.C90_translator_mul_motor",
    "Klein.Products32.C90_motor_mul_translator",
    "Klein.Products32.C90_motor_mul_motor",
    "Klein.Products32.C90_translator_div_translator",
    "Klein.Products32.C90_motor_div_translator",
    "Klein.Products32.C90_plane_meet_plane",
    "Klein.Products32.C90_plane_meet_branch",
    "Klein.Products32.C90_branch_meet_plane",
    "Klein.Products32.C90_plane_meet_ideal_line",
    "Klein.Products32.C90_ideal_line_meet_plane",
    "Klein.Products32.C90_plane_meet_line",
    "Klein.Products32.C90_line_meet_plane",
    "Klein.Products32.C90_plane_meet_point",
    "Klein.Products32.C90_point_meet_plane",
    "Klein.Products32.C90_branch_meet_ideal_line",
    "Klein.Products32.C90_ideal_line_meet_branch",
    "Klein.Products32.C90_line_meet_line",
    "Klein.Products32.C90_line_meet_ideal_line",
    "Klein.Products32.C90_ideal_line_meet_line",
    "Klein.Products32.C90_line_meet_branch",
    "Klein.Products32.C90_branch_meet_line",
    "Klein.Products32.C90_point_join_point",
    "Klein.Products32.C90_point_join_line",
    "Klein.Products32.C90_line_join_point",
    "Klein.Products32.C90_point_join_branch",
    "Klein.Products32.C90_branch_join_point",
    "Klein.Products32.C90_point_join_ideal_line",
    "Klein.Products32.C90_ideal_line_join_point",
    "Klein.Products32.C90_plane_join_point",
    "Klein.Products32.C90_point_join_plane",
    "Klein.Products32.C90_plane_dot_plane",
    "Klein.Products32.C90_plane_dot_line",
    "Klein.Products32.C90_line_dot_plane",
    "Klein.Products32.C90_plane_dot_ideal_line",
    "Klein.Products32.C90_ideal_line_dot_plane",
    "Klein.Products32.C90_plane_dot_point",
    "Klein.Products32.C90_point_dot_plane",
    "Klein.Products32.C90_line_dot_line",
    "Klein.Products32.C90_point_dot_line",
    "Klein.Products32.C90_line_dot_point",
    "Klein.Products32.C90_point_dot_point",
    "Klein.Products32.C90_point_project_line",
    "Klein.Products32.C90_point_project_plane",
    "Klein.Products32.C90_line_project_plane",
    "Klein.Products32.C90_plane_project_point",
    "Klein.Products32.C90_line_project_point",
    "Klein.Products32.C90_plane_project_line",
    "Klein.Products32.C90_translator_on_plane"
   ],
   "note": "Lines, branches, ideal lines and directions are assumed to have the zero lane of their type (C49). Products and quotients that divide by a norm or weight are C78; what the exact operations compute is C01 to C15 and C21."
  },
  {
   "property": "C91",
   "status": "proved",
   "theorems": [
    "Klein.Drift32.C91_chain",
    "Klein.Drift32.C91_unit",
    "Klein.Drift32.C91_point",
    "Klein.Drift32.C91_distance"
   ],
   "note": "Motors are measured as pairs of quaternions (C81). The single product and the single action are C90; normalize is C70."
  },
  {
   "property": "C92",
   "status": "proved",
   "theorems": [
    "Klein.Matrix32.C92_mat4x4",
    "Klein.Matrix32.C92_mat3x4",
    "Klein.Matrix32.C92_last_row",
    "Klein.Matrix32.C92_mat4x4_apply",
    "Klein.Matrix32.C92_mat3x4_apply",
    "Klein.Matrix32.C92_glsl_motor_point",
    "Klein.Matrix32.C92_glsl_motor_plane",
    "Klein.Matrix32.C92_glsl_rotor_point",
    "Klein.Matrix32.C92_glsl_rotor_plane",
    "Klein.Matrix32.C92_glsl_motor_origin",
    "Klein.Matrix32.C92_glsl_products",
    "Klein.Matrix32.C92_three_ways",
    "Klein.Matrix32.C92_rotor_columns"
   ],
   "note": "Scales and units are those of C90. For the shader: IEEE operations, contraction is C94; GLSL itself allows less."
  },
  {
   "property": "C93",
   "status": "proved",
   "theorems": [
    "Klein.Quot32.C93_motor_div_motor",
    "Klein.Quot32.C93_line_div_line",
    "Klein.Quot32.C93_branch_div_branch",
    "Klein.Quot32.C93_plane_div_plane",
    "Klein.Quot32.C93_rotor_div_rotor",
    "Klein.Quot32.C93_motor_div_rotor",
    "Klein.Quot32.C93_translator_div_translator",
    "Klein.Quot32.C93_motor_div_translator",
    "Klein.Quot32.C93_point_mul_point",
    "Klein.Quot32.C93_point_div_point",
    "Klein.Quot32.C93_motor_div_self"
   ],
   "note": "The inverses are those of C78. The quotients by rotors are compared with what the code computes in exact arithmetic (C27); the line quotient likewise (C05)."
  },
  {
   "property": "C94",
   "status": "partial",
   "theorems": [
    "Klein.Contract32.C94_plane_on_plane",
    "Klein.Contract32.C94_plane_on_line",
    "Klein.Contract32.C94_plane_on_point",
    "Klein.Contract32.C94_rotor_on_plane",
    "Klein.Contract32.C94_rotor_on_branch",
    "Klein.Contract32.C94_rotor_on_line",
    "Klein.Contract32.C94_rotor_on_point",
    "Klein.Contract32.C94_rotor_on_direction",
    "Klein.Contract32.C94_translator_on_line",
    "Klein.Contract32.C94_translator_on_point",
    "Klein.Contract32.C94_motor_on_plane",
    "Klein.Contract32.C94_motor_on_line",
    "Klein.Contract32.C94_motor_on_point",
    "Klein.Contract32.C94_motor_on_origin",
    "Klein.Contract32.C94_motor_on_direction",
    "Klein.Contract32.C94_plane_mul_plane",
    "Klein.Contract32.C94_plane_mul_point",
    "Klein.Contract32.C94_point_mul_plane",
    "Klein.Contract32.C94_branch_mul_branch",
    "Klein.Contract32.C94_line_mul_line",
    "Klein.Contract32.C94_rotor_mul_rotor",
    "Klein.Contract32.C94_dual_mul_line",
    "Klein.Contract32.C94_line_mul_dual",
    "Klein.Contract32.C94_rotor_mul_translator",
    "Klein.Contract32.C94_translator_mul_rotor",
    "Klein.Contract32.C94_translator_mul_translator",
    "Klein.Contract32.C94_rotor_mul_motor",
    "Klein.Contract32.C94_motor_mul_rotor",
    "Klein.Contract32.C94_translator_mul_motor",
    "Klein.Contract32.C94_motor_mul_translator",
    "Klein.Contract32.C94_motor_mul_motor",
    "Klein.Contract32.C94_translator_div_translator",
    "Klein.Contract32.C94_motor_div_translator",
    "Klein.Contract32.C94_plane_meet_plane",
    "Klein.Contract32.C94_plane_meet_branch",
    "Klein.Contract32.C94_branch_meet_plane",
    "Klein.Contract32.C94_plane_meet_ideal_line",
    "Klein.Contract32.C94_ideal_line_meet_plane",
    "Klein.Contract32.C94_plane_meet_line",
    "Klein.Contract32.C94_line_meet_plane",
    "Klein.Contract32.C94_plane_meet_point",
    "Klein.Contract32.C94_point_meet_plane",
    "Klein.Contract32.C94_branch_meet_ideal_line",
    "Klein.Contract32.C94_ideal_line_meet_branch",
    "Klein.Contract32.C94_line_meet_line",
    "Klein.Contract32.C94_line_meet_ideal_line",
    "Klein.Contract32.C94_ideal_line_meet_line",
    "Klein.Contract32.C94_line_meet_branch",
    "Klein.Contract32.C94_branch_meet_line",
    "Klein.Contract32.C94_point_join_point",
    "Klein.Contract32.C94_point_join_line",
    "Klein.Contract32.C94_line_join_point",
    "Klein.Contract32.C94_point_join_branch",
    "Klein.Contract32.C94_branch_join_point",
    "Klein.Contract32.C94_point_join_ideal_line",
    "Klein.Contract32.C94_ideal_line_join_point",
    "Klein.Contract32.C94_plane_join_point",
    "Klein.Contract32.C94_point_join_plane",
    "Klein.Contract32.C94_plane_dot_plane",
    "Klein.Contract32.C94_plane_dot_line",
    "Klein.Contract32.C94_line_dot_plane",
    "Klein.Contract32.C94_plane_dot_ideal_line",
    "Klein.Contract32.C94_ideal_line_dot_plane",
    "Klein.Contract32.C94_plane_dot_point",
    "Klein.Contract32.C94_point_dot_plane",
    "Klein.Contract32.C94_line_dot_line",
    "Klein.Contract32.C94_point_dot_line",
    "Klein.Contract32.C94_line_dot_point",
    "Klein.Contract32.C94_point_dot_point",
    "Klein.Contract32.C94_point_project_line",
    "Klein.Contract32.C94_point_project_plane",
    "Klein.Contract32.C94_line_project_plane",
    "Klein.Contract32.C94_plane_project_point",
    "Klein.Contract32.C94_line_project_point",
    "Klein.Contract32.C94_plane_project_line",
    "Klein.Contract32.C94_mat4x4_apply",
    "Klein.Contract32.C94_mat3x4_apply",
    "Klein.Contract32.C94_glsl_motor_point",
    "Klein.Contract32.C94_glsl_motor_plane",
    "Klein.Contract32.C94_glsl_rotor_point",
    "Klein.Contract32.C94_glsl_rotor_plane",
    "Klein.Contract32.C94_glsl_motor_origin",
    "Klein.Contract32.C94_motor_on_point_agrees",
    "Klein.Contract32.C94_meet_lane_fails",
    "Klein.Contract32.C94_project_weight_fails"
   ],
   "note": "Violated: where a product is subtracted from itself contraction leaves its rounding error, so lane 0 of a meet of planes is not zero (C94_meet_lane_fails) and the weight of a point projected onto a plane can be 16384 units off instead of 12 (C94_project_weight_fails). Proved: 75 operations and all shader functions, most with the bounds of C90 and C92 and the others with the stated larger ones in lane 0; for the projection of a point onto a plane lanes 1 to 3 only."
  },
  {
   "property": "C95",
   "status": "proved",
   "theorems": [
    "Klein.C95_screw_p1",
    "Klein.C95_screw_p2",
    "Klein.C95_power_p1",
    "Klein.C95_power_p2",
    "Klein.C95_exp_log",
    "Klein.C95_fix_normed",
    "Klein.C95_fix_eq",
    "Klein.C95_round_p1",
    "Klein.C95_round_p2"
   ],
   "note": "The comparison is with the code's formulas in exact arithmetic; for exp(log m) the exact value is given (C95_exp_log)."
  },
  {
   "property": "C96",
   "status": "partial",
   "theorems": [
    "Klein.C96_annexF_inhabited",
    "Klein.C96_half_turn_log",
    "Klein.C96_half_turn_log_zero",
    "Klein.C96_half_turn_fails",
    "Klein.C96_isa_fails"
   ],
   "note": "Violated: with SSE4.1, and with SSE3 unless all lanes of the axis are negative, the code evaluates atan2(-0, -0), the logarithm has angle -pi instead of pi/2 (C96_half_turn_log) and its exponential is -1 (C96_half_turn_fails). With SSE3 and three negative lanes it evaluates atan2(-0, +0) and the logarithm is zero (C96_half_turn_log_zero), so that the instruction sets disagree (C96_isa_fails). Proved: these values. Over the reals the code returns zero (C36, C82)."
  },
  {
   "property": "C97",
   "status": "partial",
   "theorems": [
    "Klein.C97_rotor_log",
    "Klein.C97_rotor_power",
    "Klein.C97_slerp_near",
    "Klein.C97_slerp_rotor",
    "Klein.C97_acos_inhabited",
    "Klein.C97_slerp_nan",
    "Klein.C97_slerp_self_fails",
    "Klein.C97_example",
    "Klein.C97_atOne_inhabited",
    "Klein.C97_slerp_one_nan",
    "Klein.C97_small_rotation_fails",
    "Klein.C97_slerp_zero_nan",
    "Klein.C97_near_example",
    "Klein.C97_tiny_fails"
   ],
   "note": "Violated for nearly equal rotors: once the scalar part of b * ~a comes out as one or more, or its bivector part as zero, every lane of the result is NaN (C97_slerp_nan, C97_slerp_one_nan, C97_slerp_zero_nan). The logarithm of every rotation by less than a fortieth of a degree is lost in this way (C97_small_rotation_fails, C97_tiny_fails), and there is a unit rotor whose lanes, rounded to nearest, make the scalar part of a * ~a 1 + 2^-23 (C97_slerp_self_fails). Proved: the bound whenever the scalar part comes out below one and the bivector part is not negligible (C97_slerp_near, C97_slerp_rotor), with the logarithm (C97_rotor_log) and powers (C97_rotor_power) of rounded rotors."
  },
  {
   "property": "C98",
   "status": "proved",
   "theorems": [
    "Klein.C98_power",
    "Klein.C98_slerp_near",
    "Klein.C98_slerp",
    "Klein.C98_slerp_end",
    "Klein.C98_example",
    "Klein.C98_near_example",
    "Klein.C98_power_wide",
    "Klein.C98_slerp_wide_near",
    "Klein.C98_slerp_wide",
    "Klein.C98_slerp_wide_end",
    "Klein.C98_wide_example"
   ],
   "note": "C98_slerp_near, C98_slerp, C98_slerp_end, C98_power; the Lipschitz bounds of the logarithm are in Lemmas/LogLip. C98_slerp_near covers orientations arbitrarily close to each other as long as the computed bivector part times t is at least 2^-27. C98_slerp_wide_near, C98_slerp_wide, C98_slerp_wide_end, C98_power_wide (Props/SlerpWide32) cover rotations of up to 165 degrees with bounds that grow with the angle. Rotations by more than that are not covered."
  },
  {
   "property": "C99",
   "status": "proved",
   "theorems": [
    "Klein.C99_angles",
    "Klein.C99_round_trip",
    "Klein.C99_contract_inhabited",
    "Klein.C99_example",
    "Klein.C99_fails_yaw"
   ],
   "note": "C99_angles, C99_round_trip, C99_example; C99_fails_yaw is the witness that the condition on the code's gimbal test is needed (the defect of C37 seen in binary32). Not covered: pitches within 0.9 degrees of a quarter turn."
  },
  {
   "property": "C100",
   "status": "partial",
   "theorems": [
    "Klein.C100_rotor_self",
    "Klein.C100_motor_self",
    "Klein.C100_slerp_self_fails",
    "Klein.C100_slerp_same",
    "Klein.C100_slerp_linear",
    "Klein.C100_slerp_axis",
    "Klein.C100_slerp_tiny_nan",
    "Klein.C100_slerp_motor_self_fails",
    "Klein.C100_contract_inhabited",
    "Klein.C100_example"
   ],
   "note": "C100_rotor_self, C100_motor_self, C100_slerp_same, C100_slerp_linear, C100_slerp_axis, C100_slerp_tiny_nan, C100_contract_inhabited, C100_example; C100_slerp_self_fails (rotors, all of them) and C100_slerp_motor_self_fails (a motor) show where the interpolation does not exist. Not covered: remainders whose square does not underflow but which are below the 2^-27 of C98."
  },
  {
   "property": "C101",
   "status": "partial",
   "theorems": [
    "Klein.C101_normalize",
    "Klein.C101_lerp",
    "Klein.C101_nlerp",
    "Klein.C101_nlerp_acute",
    "Klein.C101_nlerp_ends",
    "Klein.C101_opposite_nan",
    "Klein.C101_nlerp_fails",
    "Klein.C101_example"
   ],
   "note": "C101_normalize, C101_lerp, C101_nlerp, C101_nlerp_acute, C101_nlerp_ends, C101_example; C101_opposite_nan and C101_nlerp_fails show that the bound on the angle cannot be dropped. Not covered: rotor parts with (1 + A.B)/2 below 2e-9 (for correctly rounded motors) that are not exactly opposite."
  },
  {
   "property": "C102",
   "status": "partial",
   "theorems": [
    "Klein.Sym.C102_demo2",
    "Klein.Sym.C102_demo5",
    "Klein.Sym.C102_demo8",
    "Klein.Sym.C102_demo11",
    "Klein.Sym.C102_demo17",
    "Klein.Sym.C102_demo23",
    "Klein.Sym.C102_demo26",
    "Klein.Sym.C102_demo32",
    "Klein.Sym.C102_demo35",
    "Klein.Sym.C102_demo38",
    "Klein.Sym.C102_demo44",
    "Klein.Sym.C102_demo47",
    "Klein.Sym.C102_demo49",
    "Klein.Sym.C102_demo52",
    "Klein.Sym.C102_demo55",
    "Klein.Sym.C102_demo58",
    "Klein.Sym.C102_demo61",
    "Klein.Sym.C102_demo62",
    "Klein.Sym.C102_demo41",
    "Klein.Sym.C102_test4",
    "Klein.Sym.C102_test7",
    "Klein.Sym.C102_test10",
    "Klein.Sym.C102_test13",
    "Klein.Sym.C102_test16",
    "Klein.Sym.C102_test19",
    "Klein.Sym.C102_test22",
    "Klein.Sym.C102_test25",
    "Klein.Sym.C102_test28",
    "Klein.Sym.C102_test31",
    "Klein.Sym.C102_test34",
    "Klein.Sym.C102_test37",
    "Klein.Sym.C102_test40",
    "Klein.Sym.C102_test43",
    "Klein.Sym.C102_test46",
    "Klein.Sym.C102_test49",
    "Klein.Sym.C102_test52",
    "Klein.Sym.C102_test55",
    "Klein.Sym.C102_test58",
    "Klein.Sym.C102_test61",
    "Klein.Sym.C102_test64",
    "Klein.Sym.C102_test67",
    "Klein.Sym.C102_test70",
    "Klein.Sym.C102_test73",
    "Klein.Sym.C102_test76",
    "Klein.Sym.C102_test79",
    "Klein.Sym.C102_test82",
    "Klein.Sym.C102_test85",
    "Klein.Sym.C102_test88",
    "Klein.Sym.C102_test91",
    "Klein.Sym.C102_test94",
    "Klein.Sym.C102_test97",
    "Klein.Sym.C102_test100",
    "Klein.Sym.C102_test103",
    "Klein.Sym.C102_test106",
    "Klein.Sym.C102_test109",
    "Klein.Sym.C102_test112",
    "Klein.Sym.C102_test115",
    "Klein.Sym.C102_test118",
    "Klein.Sym.C102_test121",
    "Klein.Sym.C102_test124",
    "Klein.Sym.C102_test127",
    "Klein.Sym.C102_test130",
    "Klein.Sym.C102_test133",
    "Klein.Sym.C102_test136",
    "Klein.Sym.C102_test139",
    "Klein.Sym.C102_test142",
    "Klein.Sym.C102_test145",
    "Klein.Sym.C102_shell",
    "Klein.Sym.C102_shell_doc_fails"
   ],
   "note": "C102_demo*, C102_test*, C102_shell. Violated by the documentation: the answer printed in docs/shell.md is not the one the shell gives (C102_shell_doc_fails). Coefficients are integers; C104 has the same results with float."
  },
  {
   "property": "C103",
   "status": "proved",
   "theorems": [
    "Klein.C103_plane_fixed",
    "Klein.C103_motor_fixed",
    "Klein.C103_line_fixed",
    "Klein.C103_roto_reflection",
    "Klein.C103_point_fixed",
    "Klein.C103_two_planes_iff",
    "Klein.C103_rotor_planes",
    "Klein.C103_translator_planes",
    "Klein.C103_four_planes",
    "Klein.C103_rigid_reflections"
   ],
   "note": "C103_plane_fixed, C103_motor_fixed, C103_line_fixed, C103_roto_reflection, C103_point_fixed, C103_two_planes_iff, C103_rotor_planes, C103_translator_planes, C103_four_planes, C103_rigid_reflections."
  },
  {
   "property": "C104",
   "status": "proved",
   "theorems": [
    "Klein.Sym.C104_fits",
    "Klein.Sym.C104_validation",
    "Klein.Sym.C104_validation2",
    "Klein.Sym.C104_demo",
    "Klein.Sym.C104_motor_on_point",
    "Klein.Sym.C104_bound_fails"
   ],
   "note": "C104_fits, C104_validation, C104_validation2, C104_demo, C104_motor_on_point; C104_bound_fails shows a line past the bound where float and integers differ. strtof is taken to round to nearest."
  },
  {
   "property": "C105",
   "status": "proved",
   "theorems": [
    "Klein.Asm.C105_lengths",
    "Klein.Asm.C105_rotor",
    "Klein.Asm.C105_point",
    "Klein.Asm.C105_rotor_exact",
    "Klein.Asm.C105_point_exact",
    "Klein.Asm.C105_rotor_bits",
    "Klein.Asm.C105_point_bits",
    "Klein.Asm.C105_payload_fails",
    "Klein.Asm.C105_point_const",
    "Klein.Asm.C105_rtm",
    "Klein.Asm.C105_glm",
    "Klein.Asm.C105_same_product",
    "Klein.Asm.C105_same_coefficients",
    "Klein.Asm.C105_order_fails",
    "Klein.Asm.C105_rtm_masks",
    "Klein.Asm.C105_glm_dual",
    "Klein.Asm.C105_motor_quat",
    "Klein.Asm.C105_glm_dual_fails",
    "Klein.Asm.C105_glm_dual_iff",
    "Klein.Asm.C105_args",
    "Klein.Asm.C105_shufps"
   ],
   "note": "C105_rotor, C105_point, C105_rotor_bits, C105_point_bits, C105_rtm, C105_glm, C105_same_product and C105_glm_dual hold; C105_rtm_masks and C105_point_const determine the constants the page omits. Against the page: C105_glm_dual_fails (the GLM listing never moves the origin), C105_order_fails (RTM and GLM multiply in opposite orders), C105_payload_fails."
  },
  {
   "property": "C106",
   "status": "proved",
   "theorems": [
    "Klein.Glsl.C106_shim",
    "Klein.Glsl.C106_safe_iff",
    "Klein.Glsl.C106_alias_fails",
    "Klein.Glsl.C106_klein_safe",
    "Klein.Glsl.C106_glsl",
    "Klein.Glsl.C106_glsl_motor_plane",
    "Klein.Glsl.C106_products_bits",
    "Klein.Glsl.C106_apply_bits",
    "Klein.Glsl.C106_exact",
    "Klein.Glsl.C106_last_bit_fails"
   ],
   "note": "C106_shim, C106_safe_iff, C106_klein_safe, C106_glsl, C106_exact, C106_products_bits, C106_apply_bits. C106_alias_fails: the two statements the shim gets wrong (not used by klein.glsl). C106_last_bit_fails: the rotor on a point and one coefficient of the motor on a plane differ from the library in the last bit."
  },
  {
   "property": "C107",
   "status": "proved",
   "theorems": [
    "Klein.Orbit32.C107_orbit",
    "Klein.Orbit32.C107_position",
    "Klein.Orbit32.C107_distance",
    "Klein.Orbit32.C107_composed"
   ],
   "note": "C107_orbit, C107_position, C107_distance, C107_composed; Orbit.of_unit covers motors normalised by the library."
  },
  {
   "property": "C108",
   "status": "proved",
   "theorems": [
    "Klein.Renorm32.C108_norm",
    "Klein.Renorm32.C108_orientation",
    "Klein.Renorm32.C108_turn",
    "Klein.Renorm32.C108_motor_norm",
    "Klein.Renorm32.C108_motor_motion"
   ],
   "note": "C108_norm, C108_orientation, C108_turn, C108_motor_norm, C108_motor_motion. nrm_mul: exact normalisation of dual quaternions is a homomorphism, so the exact motion is the normalised exact product."
  },
  {
   "property": "C109",
   "status": "proved",
   "theorems": [
    "Klein.Renorm32.C109_place",
    "Klein.Renorm32.C109_distance"
   ],
   "note": "C109_place, C109_distance. position_place: the position of a moved point only depends on the normalised motor."
  },
  {
   "property": "C110",
   "status": "proved",
   "theorems": [
    "Klein.Integrate32.C110_norm",
    "Klein.Integrate32.C110_orientation",
    "Klein.Integrate32.C110_uniform",
    "Klein.Integrate32.C110_motion",
    "Klein.Integrate32.C110_motor_norm",
    "Klein.Integrate32.C110_place",
    "Klein.Integrate32.C110_uniform_place"
   ],
   "note": "C110_norm, C110_orientation, C110_uniform for rotors; C110_motor_norm, C110_motion, C110_place, C110_uniform_place for motors. The turn of a step must not be zero, because the exponential of a branch divides by it (C34)."
  },
  {
   "property": "C111",
   "status": "proved",
   "theorems": [
    "Klein.Kinematics32.C111_joint",
    "Klein.Kinematics32.C111_joint_reverse",
    "Klein.Kinematics32.C111_world",
    "Klein.Kinematics32.C111_bone"
   ],
   "note": "C111_joint, C111_joint_reverse, C111_world, C111_bone; rig_tree is a concrete skeleton of four joints. The calls are modelled as in C77, with every element read before it is written; as written in the document they are undefined behaviour (C77_in_place_fails)."
  },
  {
   "property": "C112",
   "status": "proved",
   "theorems": [
    "Klein.Flats32.C112_plane",
    "Klein.Flats32.C112_line",
    "Klein.Flats32.C112_distance"
   ],
   "note": "C112_plane, C112_line, C112_distance; wall_path and axis_path are concrete motions of a hundred steps."
  },
  {
   "property": "C113",
   "status": "proved",
   "theorems": [
    "Klein.C113_branch_invert",
    "Klein.C113_plane_invert",
    "Klein.C113_plane_invert_d",
    "Klein.C113_rotor_invert",
    "Klein.C113_point_invert",
    "Klein.C113_plane_normalize_d_sse41",
    "Klein.C113_plane_normalize_d_sse3",
    "Klein.C113_plane_sdiv",
    "Klein.C113_point_sdiv",
    "Klein.C113_direction_sdiv",
    "Klein.C113_ideal_line_sdiv",
    "Klein.C113_branch_sdiv",
    "Klein.C113_line_sdiv",
    "Klein.C113_rotor_sdiv",
    "Klein.C113_translator_sdiv",
    "Klein.C113_motor_sdiv",
    "Klein.C113_line_squared_norm",
    "Klein.C113_branch_squared_norm",
    "Klein.C113_ideal_squared_norm",
    "Klein.C113_line_norm",
    "Klein.C113_branch_norm",
    "Klein.C113_ideal_norm",
    "Klein.C113_plane_norm",
    "Klein.C113_rotor_sqrt",
    "Klein.C113_branch_sqrt",
    "Klein.C113_motor_sqrt_p1",
    "Klein.C113_motor_sqrt_p2",
    "Klein.C113_plain_invert",
    "Klein.C113_branch_normalize",
    "Klein.C113_line_normalize_p1",
    "Klein.C113_direction_normalize",
    "Klein.C113_rotor_normalize",
    "Klein.C113_motor_normalize_p1",
    "Klein.C113_rotor_normalize_unit",
    "Klein.C113_plane_normalize",
    "Klein.C113_plane_normalize_unit",
    "Klein.C113_point_normalize",
    "Klein.C113_motor_normalize_p2",
    "Klein.C113_motor_invert_p1",
    "Klein.C113_motor_invert_p2",
    "Klein.C113_line_normalize_p2",
    "Klein.C113_line_invert_p1",
    "Klein.C113_line_invert_p2",
    "Klein.C113_plain",
    "Klein.C113_contraction_matters"
   ],
   "note": "C113_branch_normalize, C113_line_normalize_p1, C113_direction_normalize, C113_rotor_normalize, C113_motor_normalize_p1, C113_plane_normalize, C113_point_normalize, C113_motor_normalize_p2, C113_line_normalize_p2, C113_motor_invert_p1, C113_motor_invert_p2, C113_line_invert_p1, C113_line_invert_p2, C113_branch_invert, C113_plane_invert, C113_plane_invert_d, C113_rotor_invert, C113_point_invert, C113_plane_normalize_d_sse3, the quotients C113_plane_sdiv and so on, the norms C113_line_norm, C113_plane_norm and so on, C113_rotor_sqrt, C113_branch_sqrt, C113_motor_sqrt_p1, C113_motor_sqrt_p2. C113_plain and C113_plain_invert: fusing nothing gives the operations of C70 and C78; C113_contraction_matters: fusing changes results."
  },
  {
   "property": "C114",
   "status": "proved",
   "theorems": [
    "Klein.ContractChain32.C114_chain",
    "Klein.ContractChain32.C114_unit",
    "Klein.ContractChain32.C114_point",
    "Klein.ContractChain32.C114_orbit",
    "Klein.ContractChain32.C114_position",
    "Klein.ContractChain32.C114_distance",
    "Klein.ContractChain32.C114_compiled_chain",
    "Klein.ContractChain32.C114_compiled_point",
    "Klein.ContractChain32.C114_compiled_position",
    "Klein.ContractChain32.C114_compiled_distance",
    "Klein.ContractChain32.C114_joint",
    "Klein.ContractChain32.C114_joint_reverse",
    "Klein.ContractChain32.C114_world",
    "Klein.ContractChain32.C114_bone",
    "Klein.ContractChain32.C114_plain",
    "Klein.ContractChain32.C114_contraction_matters"
   ],
   "note": "C114_chain, C114_unit, C114_point, C114_orbit, C114_position, C114_distance for any values compilers may compute in each step; C114_compiled_chain, C114_compiled_point, C114_compiled_position, C114_compiled_distance, C114_joint, C114_joint_reverse, C114_world, C114_bone for the model run on the lanes of one compiler. C114_plain: fusing nothing gives the computations of C91, C107 and C111; C114_contraction_matters: fusing changes results. Nothing is assumed about where the inputs come from: they are multiplied before anything is added (can_fl)."
  },
  {
   "property": "C115",
   "status": "proved",
   "theorems": [
    "Klein.ContractChain32.C115_plane",
    "Klein.ContractChain32.C115_line",
    "Klein.ContractChain32.C115_distance",
    "Klein.ContractChain32.C115_compiled_plane",
    "Klein.ContractChain32.C115_compiled_line",
    "Klein.ContractChain32.C115_compiled_distance",
    "Klein.ContractChain32.C115_plain"
   ],
   "note": "C115_plane, C115_line, C115_distance for any values compilers may compute in each step; C115_compiled_plane, C115_compiled_line, C115_compiled_distance for the model run on the lanes of one compiler; C115_plain: fusing nothing gives the computations of C112."
  },
  {
   "property": "C116",
   "status": "proved",
   "theorems": [
    "Klein.ContractChain32.C116_norm",
    "Klein.ContractChain32.C116_orientation",
    "Klein.ContractChain32.C116_turn",
    "Klein.ContractChain32.C116_motor_norm",
    "Klein.ContractChain32.C116_motor_motion",
    "Klein.ContractChain32.C116_place",
    "Klein.ContractChain32.C116_distance",
    "Klein.ContractChain32.C116_compiled_orientation",
    "Klein.ContractChain32.C116_compiled_motion",
    "Klein.ContractChain32.C116_compiled_place",
    "Klein.ContractChain32.C116_plain"
   ],
   "note": "C116_norm, C116_orientation, C116_turn, C116_motor_norm, C116_motor_motion, C116_place, C116_distance for any values compilers may compute in each step; C116_compiled_orientation, C116_compiled_motion, C116_compiled_place for the model run on the lanes of one compiler; C116_plain: fusing nothing gives the loops of C108."
  },
  {
   "property": "C117",
   "status": "proved",
   "theorems": [
    "Klein.C117_branch_exp",
    "Klein.C117_line_exp_p1",
    "Klein.C117_line_exp_p2",
    "Klein.C117_motor_log_p1",
    "Klein.C117_motor_log_p2",
    "Klein.C117_rotor_log",
    "Klein.C117_plain"
   ],
   "note": "C117_branch_exp, C117_line_exp_p1, C117_line_exp_p2, C117_rotor_log, C117_motor_log_p1, C117_motor_log_p2; C117_plain: fusing nothing gives the computations of C79."
  },
  {
   "property": "C118",
   "status": "proved",
   "theorems": [
    "Klein.ContractChain32.C118_norm",
    "Klein.ContractChain32.C118_orientation",
    "Klein.ContractChain32.C118_uniform",
    "Klein.ContractChain32.C118_motion",
    "Klein.ContractChain32.C118_motor_norm",
    "Klein.ContractChain32.C118_place",
    "Klein.ContractChain32.C118_uniform_place"
   ],
   "note": "C118_norm, C118_orientation, C118_uniform for rotors; C118_motion, C118_motor_norm, C118_place, C118_uniform_place for motors."
  },
  {
   "property": "C119",
   "status": "proved",
   "theorems": [
    "Klein.C119_rotor_mkAxis",
    "Klein.C119_translator_mkAxis",
    "Klein.C119_rotor_mkEuler",
    "Klein.C119_plain"
   ],
   "note": "C119_rotor_mkAxis, C119_translator_mkAxis, C119_rotor_mkEuler; C119_plain: fusing nothing gives the computations of C79."
  },
  {
   "property": "C120",
   "status": "proved",
   "theorems": [
    "Klein.C120_screw_p1",
    "Klein.C120_screw_p2",
    "Klein.C120_power_p1",
    "Klein.C120_power_p2",
    "Klein.C120_round_p1",
    "Klein.C120_round_p2",
    "Klein.C120_plain"
   ],
   "note": "C120_screw_p1, C120_screw_p2, C120_power_p1, C120_power_p2, C120_round_p1, C120_round_p2; C120_plain: fusing nothing gives the computations of C95."
  }
 ]
}
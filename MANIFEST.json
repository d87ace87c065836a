{
 "claims": [
  {
   "property": "C01",
   "status": "proved",
   "theorems": [
    "StaticMath.C01_mul_M22",
    "StaticMath.C01_mul_M33",
    "StaticMath.C01_mul_M44",
    "StaticMath.C01_mul_M55",
    "StaticMath.C01_mul_M66"
   ],
   "note": ""
  },
  {
   "property": "C02",
   "status": "proved",
   "theorems": [
    "StaticMath.C02_ring_M22",
    "StaticMath.C02_ring_M33",
    "StaticMath.C02_ring_M44",
    "StaticMath.C02_ring_M55",
    "StaticMath.C02_ring_M66"
   ],
   "note": ""
  },
  {
   "property": "C03",
   "status": "proved",
   "theorems": [
    "StaticMath.C03_mulVec_M22",
    "StaticMath.C03_mulVec_M33",
    "StaticMath.C03_mulVec_M44",
    "StaticMath.C03_mulVec_M55",
    "StaticMath.C03_mulVec_M66"
   ],
   "note": ""
  },
  {
   "property": "C04",
   "status": "partial",
   "theorems": [
    "StaticMath.C04_vecMul_V2_partial",
    "StaticMath.C04_vecMul_V4_partial",
    "StaticMath.C04_vecMul_V5_partial",
    "StaticMath.C04_vecMul_V6_partial",
    "StaticMath.C04_vecMul_V3_is_mulVec",
    "StaticMath.C04_vecMul_V3_false"
   ],
   "note": "False for V3: vector3.rs multiplies a row vector by a 3x3 matrix as M*v; negation with witness, and what V3 does compute is proved."
  },
  {
   "property": "C05",
   "status": "proved",
   "theorems": [
    "StaticMath.C05_transpose_M22",
    "StaticMath.C05_transpose_linear_M22",
    "StaticMath.C05_transpose_mul_M22",
    "StaticMath.C05_transpose_M33",
    "StaticMath.C05_transpose_linear_M33",
    "StaticMath.C05_transpose_mul_M33",
    "StaticMath.C05_transpose_M44",
    "StaticMath.C05_transpose_linear_M44",
    "StaticMath.C05_transpose_mul_M44",
    "StaticMath.C05_transpose_M55",
    "StaticMath.C05_transpose_linear_M55",
    "StaticMath.C05_transpose_mul_M55",
    "StaticMath.C05_transpose_M66",
    "StaticMath.C05_transpose_linear_M66",
    "StaticMath.C05_transpose_mul_M66"
   ],
   "note": ""
  },
  {
   "property": "C06",
   "status": "proved",
   "theorems": [
    "StaticMath.C06_det_M22",
    "StaticMath.C06_det_M33",
    "StaticMath.C06_det_M44",
    "StaticMath.C06_det_M55",
    "StaticMath.C06_det_M66"
   ],
   "note": ""
  },
  {
   "property": "C07",
   "status": "proved",
   "theorems": [
    "StaticMath.C07_det_M22",
    "StaticMath.C07_det_M33",
    "StaticMath.C07_det_M44",
    "StaticMath.C07_det_M55",
    "StaticMath.C07_det_M66"
   ],
   "note": ""
  },
  {
   "property": "C08",
   "status": "proved",
   "theorems": [
    "StaticMath.C08_inverse_M22",
    "StaticMath.C08_inverse_M33",
    "StaticMath.C08_inverse_M44",
    "StaticMath.C08_inverse_M55",
    "StaticMath.C08_inverse_M66"
   ],
   "note": ""
  },
  {
   "property": "C09",
   "status": "proved",
   "theorems": [
    "StaticMath.C09_inverse_M22",
    "StaticMath.C09_inverse_M33",
    "StaticMath.C09_inverse_M44",
    "StaticMath.C09_inverse_M55",
    "StaticMath.C09_inverse_M66"
   ],
   "note": ""
  },
  {
   "property": "C10",
   "status": "partial",
   "theorems": [
    "StaticMath.C10_inverse_M22_false",
    "StaticMath.C10_inverse_M22_partial",
    "StaticMath.C10_inverse_M33_false",
    "StaticMath.C10_inverse_M33_partial",
    "StaticMath.C10_inverse_M44_false",
    "StaticMath.C10_inverse_M44_partial",
    "StaticMath.C10_inverse_M55_false",
    "StaticMath.C10_inverse_M55_partial",
    "StaticMath.C10_inverse_M66_false",
    "StaticMath.C10_inverse_M66_partial",
    "StaticMath.C10_scaling_false"
   ],
   "note": "False: matrices with non-zero determinant below EPSILON are reported as singular; proved: |det| >= EPSILON gives Some."
  },
  {
   "property": "C11",
   "status": "proved",
   "theorems": [
    "StaticMath.C11_solve_M22",
    "StaticMath.C11_solve_M33",
    "StaticMath.C11_solve_M44",
    "StaticMath.C11_solve_M55",
    "StaticMath.C11_solve_M66"
   ],
   "note": ""
  },
  {
   "property": "C12",
   "status": "proved",
   "theorems": [
    "StaticMath.C12_trace_M22",
    "StaticMath.C12_trace_M33",
    "StaticMath.C12_trace_M44",
    "StaticMath.C12_trace_M55",
    "StaticMath.C12_trace_M66"
   ],
   "note": ""
  },
  {
   "property": "C13",
   "status": "proved",
   "theorems": [
    "StaticMath.C13_norm2_M22",
    "StaticMath.C13_norm2_M33",
    "StaticMath.C13_norm2_M44",
    "StaticMath.C13_norm2_M55",
    "StaticMath.C13_norm2_M66"
   ],
   "note": ""
  },
  {
   "property": "C14",
   "status": "proved",
   "theorems": [
    "StaticMath.C14_dot_V2",
    "StaticMath.C14_norm2_V2",
    "StaticMath.C14_dot_V3",
    "StaticMath.C14_norm2_V3",
    "StaticMath.C14_dot_V4",
    "StaticMath.C14_norm2_V4",
    "StaticMath.C14_dot_V5",
    "StaticMath.C14_norm2_V5",
    "StaticMath.C14_dot_V6",
    "StaticMath.C14_norm2_V6"
   ],
   "note": ""
  },
  {
   "property": "C15",
   "status": "proved",
   "theorems": [
    "StaticMath.C15_normalize_V2",
    "StaticMath.C15_normalize_V3",
    "StaticMath.C15_normalize_V4",
    "StaticMath.C15_normalize_V5",
    "StaticMath.C15_normalize_V6"
   ],
   "note": ""
  },
  {
   "property": "C16",
   "status": "proved",
   "theorems": [
    "StaticMath.C16_module_V2",
    "StaticMath.C16_sdiv_V2",
    "StaticMath.C16_module_V3",
    "StaticMath.C16_sdiv_V3",
    "StaticMath.C16_module_V4",
    "StaticMath.C16_sdiv_V4",
    "StaticMath.C16_module_V5",
    "StaticMath.C16_sdiv_V5",
    "StaticMath.C16_module_V6",
    "StaticMath.C16_sdiv_V6"
   ],
   "note": ""
  },
  {
   "property": "C17",
   "status": "proved",
   "theorems": [
    "StaticMath.C17_cross"
   ],
   "note": ""
  },
  {
   "property": "C18",
   "status": "partial",
   "theorems": [
    "StaticMath.C18_norm_inf_false",
    "StaticMath.C18_norm_inf_partial"
   ],
   "note": "False: norm_inf returns the largest element, not the largest absolute value; proved: it is the maximum, and the infinity norm on non-negative vectors."
  },
  {
   "property": "C19",
   "status": "proved",
   "theorems": [
    "StaticMath.C19_norm_l_slice",
    "StaticMath.C19_norm_l"
   ],
   "note": ""
  },
  {
   "property": "C20",
   "status": "proved",
   "theorems": [
    "StaticMath.C20_find_max_min"
   ],
   "note": ""
  },
  {
   "property": "C21",
   "status": "proved",
   "theorems": [
    "StaticMath.C21_views_M22",
    "StaticMath.C21_views_M33",
    "StaticMath.C21_views_M44",
    "StaticMath.C21_views_M55",
    "StaticMath.C21_views_M66"
   ],
   "note": ""
  },
  {
   "property": "C22",
   "status": "proved",
   "theorems": [
    "StaticMath.C22_diag_M22",
    "StaticMath.C22_diag_tri_M33",
    "StaticMath.C22_determine_M33",
    "StaticMath.C22_diag_tri_M44",
    "StaticMath.C22_determine_M44",
    "StaticMath.C22_diag_tri_M55",
    "StaticMath.C22_determine_M55",
    "StaticMath.C22_diag_tri_M66",
    "StaticMath.C22_determine_M66"
   ],
   "note": ""
  },
  {
   "property": "C23",
   "status": "proved",
   "theorems": [
    "StaticMath.C23_submatrix_M44",
    "StaticMath.C23_submatrix_M55",
    "StaticMath.C23_submatrix_M66"
   ],
   "note": ""
  },
  {
   "property": "C24",
   "status": "proved",
   "theorems": [
    "StaticMath.C24_for_each_M22",
    "StaticMath.C24_for_each_M33",
    "StaticMath.C24_for_each_M44",
    "StaticMath.C24_for_each_M55",
    "StaticMath.C24_for_each_M66"
   ],
   "note": ""
  },
  {
   "property": "C25",
   "status": "proved",
   "theorems": [
    "StaticMath.C25_vec",
    "StaticMath.C25_mat",
    "StaticMath.C25_rows"
   ],
   "note": ""
  },
  {
   "property": "C26",
   "status": "proved",
   "theorems": [
    "StaticMath.C26_smul_M22",
    "StaticMath.C26_sdiv_M22",
    "StaticMath.C26_smul_M33",
    "StaticMath.C26_sdiv_M33",
    "StaticMath.C26_smul_M44",
    "StaticMath.C26_sdiv_M44",
    "StaticMath.C26_smul_M55",
    "StaticMath.C26_sdiv_M55",
    "StaticMath.C26_smul_M66",
    "StaticMath.C26_sdiv_M66",
    "StaticMath.C26_left_M22",
    "StaticMath.C26_left_M33"
   ],
   "note": ""
  },
  {
   "property": "C27",
   "status": "proved",
   "theorems": [
    "StaticMath.C27_copy_elements_from"
   ],
   "note": ""
  },
  {
   "property": "C28",
   "status": "proved",
   "theorems": [
    "StaticMath.C28_lu_M22",
    "StaticMath.C28_lu_M33",
    "StaticMath.C28_lu_M44",
    "StaticMath.C28_lu_M55",
    "StaticMath.C28_lu_M66"
   ],
   "note": "Exact arithmetic, every invertible matrix; P is the replay of indx as row swaps. The loop proof (Lemmas/Lu.lean) is for every n."
  },
  {
   "property": "C29",
   "status": "partial",
   "theorems": [
    "StaticMath.C29_lu_M22_false",
    "StaticMath.C29_lu_M22_partial",
    "StaticMath.C29_lu_M33_false",
    "StaticMath.C29_lu_M33_partial",
    "StaticMath.C29_lu_M44_false",
    "StaticMath.C29_lu_M44_partial",
    "StaticMath.C29_lu_M55_false",
    "StaticMath.C29_lu_M55_partial",
    "StaticMath.C29_lu_M66_false",
    "StaticMath.C29_lu_M66_partial"
   ],
   "note": "False: `big` is not reset per row, so the check only looks at the first row; a non-zero matrix with a zero first row panics. Partial: lu panics iff the first row is zero."
  },
  {
   "property": "C30",
   "status": "partial",
   "theorems": [
    "StaticMath.C30_lu_M22_false",
    "StaticMath.C30_lu_M22_partial",
    "StaticMath.C30_lu_M33_false",
    "StaticMath.C30_lu_M33_partial",
    "StaticMath.C30_lu_M44_false",
    "StaticMath.C30_lu_M44_partial",
    "StaticMath.C30_lu_M55_false",
    "StaticMath.C30_lu_M55_partial",
    "StaticMath.C30_lu_M66_false",
    "StaticMath.C30_lu_M66_partial"
   ],
   "note": "False: a zero pivot is replaced by 1e-40, so the reported determinant is never 0. Partial: lu factors P*A plus 1e-40 on some diagonal entries (exactly when A is singular) and reports the determinant of that matrix."
  },
  {
   "property": "C31",
   "status": "proved",
   "theorems": [
    "StaticMath.C31_pivots_M22",
    "StaticMath.C31_pivots_M33",
    "StaticMath.C31_pivots_M44",
    "StaticMath.C31_pivots_M55",
    "StaticMath.C31_pivots_M66"
   ],
   "note": "All real matrices on which lu returns."
  },
  {
   "property": "C32",
   "status": "proved",
   "theorems": [
    "StaticMath.C32_qr_M22",
    "StaticMath.C32_qr_M33",
    "StaticMath.C32_qr_M44",
    "StaticMath.C32_qr_M55",
    "StaticMath.C32_qr_M66"
   ],
   "note": "Exact arithmetic, all real matrices; the Gram-Schmidt loop proof (Lemmas/Qr.lean) is for every n."
  },
  {
   "property": "C33",
   "status": "proved",
   "theorems": [
    "StaticMath.C33_real_eigenvals"
   ],
   "note": ""
  },
  {
   "property": "C34",
   "status": "proved",
   "theorems": [
    "StaticMath.C34_nearly_equal_symm",
    "StaticMath.C34_nearly_equal_refl",
    "StaticMath.C34_nearly_equal_nan"
   ],
   "note": "IEEE model, every binary format (Ieee/Float.lean)."
  },
  {
   "property": "C35",
   "status": "proved",
   "theorems": [
    "StaticMath.C35_nearly_equal",
    "StaticMath.C35_scaling"
   ],
   "note": ""
  },
  {
   "property": "C36",
   "status": "partial",
   "theorems": [
    "StaticMath.C36_tiny_false",
    "StaticMath.C36_tiny_partial"
   ],
   "note": "False: the absolute-comparison branch near zero is dead (compares with min_value); proved for the branches that are reachable."
  },
  {
   "property": "C37",
   "status": "proved",
   "theorems": [
    "StaticMath.C37_nearly_zero",
    "StaticMath.C37_nearly_zero_float"
   ],
   "note": "Exact reals and IEEE model."
  },
  {
   "property": "C38",
   "status": "partial",
   "theorems": [
    "StaticMath.C38_compare_vecs_false",
    "StaticMath.C38_compare_vecs_partial"
   ],
   "note": "False: compare_vecs ignores trailing elements of the longer slice; proved for equal lengths."
  },
  {
   "property": "C39",
   "status": "partial",
   "theorems": [
    "StaticMath.C39_is_rotation_partial",
    "StaticMath.C39_is_rotation_h_partial",
    "StaticMath.C39_is_rotation_det_partial",
    "StaticMath.C39_is_rotation_false"
   ],
   "note": "False: is_rotation accepts any matrix of determinant 1; proved: rotations are accepted, and acceptance forces det within EPSILON."
  },
  {
   "property": "C40",
   "status": "proved",
   "theorems": [
    "StaticMath.C40_dot",
    "StaticMath.C40_norm2",
    "StaticMath.C40_normalize",
    "StaticMath.C40_project"
   ],
   "note": ""
  },
  {
   "property": "C41",
   "status": "proved",
   "theorems": [
    "StaticMath.C41_hamilton",
    "StaticMath.C41_sdiv"
   ],
   "note": ""
  },
  {
   "property": "C42",
   "status": "proved",
   "theorems": [
    "StaticMath.C42_norm",
    "StaticMath.C42_norm2"
   ],
   "note": ""
  },
  {
   "property": "C43",
   "status": "partial",
   "theorems": [
    "StaticMath.C43_eq_false",
    "StaticMath.C43_eq_partial"
   ],
   "note": "False: == also compares the normalized flag, so one()*one() != one(); proved: == is equality of components and flag."
  },
  {
   "property": "C44",
   "status": "partial",
   "theorems": [
    "StaticMath.C44_flag_exp_false",
    "StaticMath.C44_flag_partial",
    "StaticMath.C44_built_partial"
   ],
   "note": "False for exp (flag set for small arguments); proved truthful for every other flag-setting function, and by induction for every quaternion a program builds from the public functions (exp, sqrt, pow only of zero or of arguments with norm at least EPSILON)."
  },
  {
   "property": "C45",
   "status": "proved",
   "theorems": [
    "StaticMath.C45_inverse",
    "StaticMath.C45_div"
   ],
   "note": ""
  },
  {
   "property": "C46",
   "status": "proved",
   "theorems": [
    "StaticMath.C46_normalize",
    "StaticMath.C46_idempotent"
   ],
   "note": ""
  },
  {
   "property": "C47",
   "status": "proved",
   "theorems": [
    "StaticMath.C47_mulVec"
   ],
   "note": ""
  },
  {
   "property": "C48",
   "status": "proved",
   "theorems": [
    "StaticMath.C48_to_rotation",
    "StaticMath.C48_double_cover"
   ],
   "note": ""
  },
  {
   "property": "C49",
   "status": "proved",
   "theorems": [
    "StaticMath.C49_from_rotation"
   ],
   "note": ""
  },
  {
   "property": "C50",
   "status": "proved",
   "theorems": [
    "StaticMath.C50_round_trip"
   ],
   "note": ""
  },
  {
   "property": "C51",
   "status": "proved",
   "theorems": [
    "StaticMath.C51_rotation",
    "StaticMath.C51_norm_encoded"
   ],
   "note": ""
  },
  {
   "property": "C52",
   "status": "proved",
   "theorems": [
    "StaticMath.C52_axis_angle"
   ],
   "note": ""
  },
  {
   "property": "C53",
   "status": "proved",
   "theorems": [
    "StaticMath.C53_from_euler_angles"
   ],
   "note": ""
  },
  {
   "property": "C54",
   "status": "partial",
   "theorems": [
    "StaticMath.C54_rotation_to_euler_partial",
    "StaticMath.C54_rotation_to_euler_false",
    "StaticMath.C54_to_euler_angles_partial"
   ],
   "note": "False inside a band around gimbal lock (code switches to the gimbal formulas although the angles are still determined); proved exact at gimbal lock and at distance 4 EPSILON or more, within 12 EPSILON in each entry for all rotations."
  },
  {
   "property": "C55",
   "status": "proved",
   "theorems": [
    "StaticMath.C55_exp"
   ],
   "note": ""
  },
  {
   "property": "C56",
   "status": "proved",
   "theorems": [
    "StaticMath.C56_exp_ln"
   ],
   "note": ""
  },
  {
   "property": "C57",
   "status": "proved",
   "theorems": [
    "StaticMath.C57_sqrt"
   ],
   "note": ""
  },
  {
   "property": "C58",
   "status": "partial",
   "theorems": [
    "StaticMath.C58_slerp_end_false",
    "StaticMath.C58_slerp_zero_false",
    "StaticMath.C58_slerp_partial"
   ],
   "note": "False in the nearly-parallel branch (components 1 and 2 of b swapped; zero quaternion for negative dot); proved whenever the sine of the angle is at least 0.001 or the arguments are parallel."
  },
  {
   "property": "C59",
   "status": "proved",
   "theorems": [
    "StaticMath.C59_derivative"
   ],
   "note": ""
  },
  {
   "property": "C60",
   "status": "proved",
   "theorems": [
    "StaticMath.C60_dual_numbers",
    "StaticMath.C60_conj"
   ],
   "note": ""
  },
  {
   "property": "C61",
   "status": "partial",
   "theorems": [
    "StaticMath.C61_rot_trans_partial",
    "StaticMath.C61_translation_rotation_partial",
    "StaticMath.C61_transform_point_false"
   ],
   "note": "False for transform_point: the code multiplies by conj() where conj_combined() is needed, so every point is only rotated and never translated (new_from_translation(t).transform_point(p) = p); proved: the real part, get_translation, to_rotation_translation, to_quaternion_translation and to_homogeneous are right."
  },
  {
   "property": "C62",
   "status": "partial",
   "theorems": [
    "StaticMath.C62_product_partial",
    "StaticMath.C62_transform_point_false"
   ],
   "note": "False: transform_point is not to_homogeneous applied to (p,1) (it omits the translation); proved: to_homogeneous of a product is the product, products of unit dual quaternions are unit, transform_point composes."
  },
  {
   "property": "C63",
   "status": "proved",
   "theorems": [
    "StaticMath.C63_homogeneous",
    "StaticMath.C63_rotation_matrix"
   ],
   "note": ""
  },
  {
   "property": "C64",
   "status": "partial",
   "theorems": [
    "StaticMath.C64_inverse_partial",
    "StaticMath.C64_flags_partial",
    "StaticMath.C64_inverse_false"
   ],
   "note": "False for new_from_rotation / new_from_rotation_matrix of arguments that are not rotations (flag set without looking); proved: two-sided inverse whenever the flags are truthful, exact panic condition, and the flags are truthful for every other constructor and operation."
  },
  {
   "property": "C65",
   "status": "partial",
   "theorems": [
    "StaticMath.C65_normalize_partial",
    "StaticMath.C65_flagged",
    "StaticMath.C65_normalize_false"
   ],
   "note": "False: the dual part is only scaled, not orthogonalised; proved: exact None condition, real part of norm 1, result proportional to the argument, unit exactly when the parts are orthogonal."
  },
  {
   "property": "C66",
   "status": "partial",
   "theorems": [
    "StaticMath.C66_div_self",
    "StaticMath.C66_div_partial",
    "StaticMath.C66_div_false"
   ],
   "note": "False in general (the formula assumes commuting real parts); proved: a/a = 1, exact panic condition, the real part is always right, and all of it when the divisor's real part commutes with the dividend."
  },
  {
   "property": "C67",
   "status": "partial",
   "theorems": [
    "StaticMath.C67_screw",
    "StaticMath.C67_pow_partial",
    "StaticMath.C67_pow_translation_partial",
    "StaticMath.C67_pow_false"
   ],
   "note": "False for pure translations: below the threshold the code uses new_from_point, doubling the translation; proved for angles in [EPSILON, 2 pi): same line, e times angle and displacement, exponent laws; and that new_from_screw_parameters is the screw motion."
  },
  {
   "property": "C68",
   "status": "proved",
   "theorems": [
    "StaticMath.C68_from_parameters",
    "StaticMath.C68_round_trip"
   ],
   "note": ""
  },
  {
   "property": "C69",
   "status": "partial",
   "theorems": [
    "StaticMath.C69_screw_lerp_partial",
    "StaticMath.C69_begin_false",
    "StaticMath.C69_end_false"
   ],
   "note": "False at the start point when the code's sign test (real part of the quaternion product) is negative (translation negated), and at the end point for motions that differ by a translation; proved in all other cases, and what is returned in the first."
  },
  {
   "property": "C70",
   "status": "partial",
   "theorems": [
    "StaticMath.C70_is_normalized_partial",
    "StaticMath.C70_is_normalized_false"
   ],
   "note": "False for real parts of norm below EPSILON (answer true, e.g. zero()); proved: otherwise true forces the norm within 3 EPSILON of 1, norm exactly 1 is accepted."
  },
  {
   "property": "C71",
   "status": "partial",
   "theorems": [
    "StaticMath.C71_log_partial",
    "StaticMath.C71_log_false"
   ],
   "note": "False: log of the identity or of a pure translation panics; proved: None exactly for unflagged, panic exactly when the rotation axis is undefined, the components otherwise."
  },
  {
   "property": "C72",
   "status": "proved",
   "theorems": [
    "StaticMath.C72_rot2",
    "StaticMath.C72_rotx",
    "StaticMath.C72_roty",
    "StaticMath.C72_rotz"
   ],
   "note": ""
  },
  {
   "property": "C73",
   "status": "partial",
   "theorems": [
    "StaticMath.C73_euler_to_rotation_partial",
    "StaticMath.C73_euler_to_rotation_false"
   ],
   "note": "False for EulerSeq::YZX, which multiplies rotx*roty*rotz; proved for the other sequences, the default, and that every result is a rotation."
  },
  {
   "property": "C74",
   "status": "proved",
   "theorems": [
    "StaticMath.C74_homogeneous",
    "StaticMath.C74_get_parts"
   ],
   "note": ""
  },
  {
   "property": "C75",
   "status": "proved",
   "theorems": [
    "StaticMath.C75_homogeneous_inverse"
   ],
   "note": ""
  },
  {
   "property": "C76",
   "status": "proved",
   "theorems": [
    "StaticMath.C76_homogeneous_inverse_transform"
   ],
   "note": ""
  },
  {
   "property": "C77",
   "status": "proved",
   "theorems": [
    "StaticMath.C77_skew",
    "StaticMath.C77_skew_small"
   ],
   "note": ""
  },
  {
   "property": "C78",
   "status": "proved",
   "theorems": [
    "StaticMath.C78_rodrigues"
   ],
   "note": ""
  },
  {
   "property": "C79",
   "status": "proved",
   "theorems": [
    "StaticMath.C79_matrix_exponential"
   ],
   "note": ""
  },
  {
   "property": "C80",
   "status": "partial",
   "theorems": [
    "StaticMath.C80_matrix_log_partial",
    "StaticMath.C80_matrix_log_false",
    "StaticMath.C80_matrix_log_small_false"
   ],
   "note": "False for half turns about (nearly) the x axis (third half-turn branch uses 1 + r10) and for angles below EPSILON (matrix_exponential returns the identity); proved: antisymmetric always, exp(log R) = R for all other R, matrix_exponential(matrix_log R) = R when additionally the angle is 0 or at least EPSILON."
  },
  {
   "property": "C81",
   "status": "partial",
   "theorems": [
    "StaticMath.C81_matrix_exponential6_partial",
    "StaticMath.C81_matrix_exponential6_false"
   ],
   "note": "False for twists without rotation: the code's translation branch has a stray 1 at (0,2); proved for rotation part at least EPSILON, never panics, and what the branch returns."
  },
  {
   "property": "C82",
   "status": "partial",
   "theorems": [
    "StaticMath.C82_matrix_log6_partial",
    "StaticMath.C82_matrix_log6_false"
   ],
   "note": "False for pure translations (stray 1 in matrix_exponential6) and the half turns of C80; proved: result in se(3), exp(log6 H) = H outside those half turns (pure translations included), round trip for angles at least EPSILON."
  },
  {
   "property": "C83",
   "status": "proved",
   "theorems": [
    "StaticMath.C83_adjoint"
   ],
   "note": ""
  },
  {
   "property": "C84",
   "status": "proved",
   "theorems": [
    "StaticMath.C84_twists"
   ],
   "note": ""
  },
  {
   "property": "C85",
   "status": "proved",
   "theorems": [
    "StaticMath.C85_distance_to_manifold"
   ],
   "note": ""
  },
  {
   "property": "C86",
   "status": "proved",
   "theorems": [
    "StaticMath.C86_axis_angle",
    "StaticMath.C86_axis_angle6",
    "StaticMath.C86_screw_to_axis"
   ],
   "note": ""
  },
  {
   "property": "C87",
   "status": "partial",
   "theorems": [
    "StaticMath.C87_get_parts_partial",
    "StaticMath.C87_get_parts_false"
   ],
   "note": "Inherits the band of C54; proved: unit quaternion, exact translation, rotation exact outside the band and within 12 EPSILON in each entry always."
  },
  {
   "property": "C88",
   "status": "proved",
   "theorems": [
    "StaticMath.C88_ksi",
    "StaticMath.C88_translation"
   ],
   "note": ""
  },
  {
   "property": "C89",
   "status": "proved",
   "theorems": [
    "StaticMath.C89_mul_one_M22",
    "StaticMath.C89_one_mul_M22",
    "StaticMath.C89_one_mulVec_M22",
    "StaticMath.C89_mul_one_M33",
    "StaticMath.C89_one_mul_M33",
    "StaticMath.C89_one_mulVec_M33",
    "StaticMath.C89_mul_one_M44",
    "StaticMath.C89_one_mul_M44",
    "StaticMath.C89_one_mulVec_M44",
    "StaticMath.C89_mul_one_M55",
    "StaticMath.C89_one_mul_M55",
    "StaticMath.C89_one_mulVec_M55",
    "StaticMath.C89_mul_one_M66",
    "StaticMath.C89_one_mul_M66",
    "StaticMath.C89_one_mulVec_M66"
   ],
   "note": "IEEE model, every binary format; == is the derived PartialEq."
  },
  {
   "property": "C90",
   "status": "proved",
   "theorems": [
    "StaticMath.C90_V2",
    "StaticMath.C90_transpose_M22",
    "StaticMath.C90_transpose_mul_M22",
    "StaticMath.C90_V3",
    "StaticMath.C90_transpose_M33",
    "StaticMath.C90_transpose_mul_M33",
    "StaticMath.C90_V4",
    "StaticMath.C90_transpose_M44",
    "StaticMath.C90_transpose_mul_M44_differs",
    "StaticMath.C90_V5",
    "StaticMath.C90_transpose_M55",
    "StaticMath.C90_transpose_mul_M55",
    "StaticMath.C90_V6",
    "StaticMath.C90_transpose_M66",
    "StaticMath.C90_transpose_mul_M66"
   ],
   "note": "IEEE model; NaN carries no payload. For 4x4 the product statement is shown to be false in every format (C90_transpose_mul_M44_differs), which is why the claim leaves 4x4 out."
  },
  {
   "property": "C91",
   "status": "proved",
   "theorems": [
    "StaticMath.C91_M22",
    "StaticMath.C91_M33",
    "StaticMath.C91_M44",
    "StaticMath.C91_M55",
    "StaticMath.C91_M66"
   ],
   "note": "IEEE model. Disagreement with the intent of inverse(): a NaN determinant is not reported as singular."
  },
  {
   "property": "C92",
   "status": "proved",
   "theorems": [
    "StaticMath.C92_V2",
    "StaticMath.C92_witness_V2",
    "StaticMath.C92_V3",
    "StaticMath.C92_witness_V3",
    "StaticMath.C92_V4",
    "StaticMath.C92_witness_V4",
    "StaticMath.C92_V5",
    "StaticMath.C92_witness_V5",
    "StaticMath.C92_V6",
    "StaticMath.C92_witness_V6"
   ],
   "note": "IEEE model; witnesses of underflow and overflow in every format."
  },
  {
   "property": "C93",
   "status": "proved",
   "theorems": [
    "StaticMath.C93_dot_V2",
    "StaticMath.C93_mulVec_M22",
    "StaticMath.C93_mul_M22",
    "StaticMath.C93_dot_V3",
    "StaticMath.C93_mulVec_M33",
    "StaticMath.C93_mul_M33",
    "StaticMath.C93_dot_V4",
    "StaticMath.C93_mulVec_M44",
    "StaticMath.C93_mul_M44",
    "StaticMath.C93_dot_V5",
    "StaticMath.C93_mulVec_M55",
    "StaticMath.C93_mul_M55",
    "StaticMath.C93_dot_V6",
    "StaticMath.C93_mulVec_M66",
    "StaticMath.C93_mul_M66"
   ],
   "note": "IEEE model; also a bound without the normal-range hypothesis (absolute term n*eta)."
  },
  {
   "property": "C94",
   "status": "proved",
   "theorems": [
    "StaticMath.C94_add_M22",
    "StaticMath.C94_add_V2",
    "StaticMath.C94_sub_M22",
    "StaticMath.C94_sub_V2",
    "StaticMath.C94_dot_V2",
    "StaticMath.C94_mulVec_M22",
    "StaticMath.C94_mul_M22",
    "StaticMath.C94_add_M33",
    "StaticMath.C94_add_V3",
    "StaticMath.C94_sub_M33",
    "StaticMath.C94_sub_V3",
    "StaticMath.C94_dot_V3",
    "StaticMath.C94_mulVec_M33",
    "StaticMath.C94_mul_M33",
    "StaticMath.C94_add_M44",
    "StaticMath.C94_add_V4",
    "StaticMath.C94_sub_M44",
    "StaticMath.C94_sub_V4",
    "StaticMath.C94_dot_V4",
    "StaticMath.C94_mulVec_M44",
    "StaticMath.C94_mul_M44",
    "StaticMath.C94_add_M55",
    "StaticMath.C94_add_V5",
    "StaticMath.C94_sub_M55",
    "StaticMath.C94_sub_V5",
    "StaticMath.C94_dot_V5",
    "StaticMath.C94_mulVec_M55",
    "StaticMath.C94_mul_M55",
    "StaticMath.C94_add_M66",
    "StaticMath.C94_add_V6",
    "StaticMath.C94_sub_M66",
    "StaticMath.C94_sub_V6",
    "StaticMath.C94_dot_V6",
    "StaticMath.C94_mulVec_M66",
    "StaticMath.C94_mul_M66"
   ],
   "note": "Panic on overflow modelled as a poison value; also a sufficient condition for not panicking."
  },
  {
   "property": "C95",
   "status": "proved",
   "theorems": [
    "StaticMath.C95_no_panic",
    "StaticMath.C95_sin_cos"
   ],
   "note": ""
  },
  {
   "property": "C96",
   "status": "proved",
   "theorems": [
    "StaticMath.C96_pow"
   ],
   "note": ""
  },
  {
   "property": "C97",
   "status": "partial",
   "theorems": [
    "StaticMath.C97_elementwise",
    "StaticMath.C97_vec_eq",
    "StaticMath.C97_mat_eq",
    "StaticMath.C97_vec_eq_float",
    "StaticMath.C97_vec_is_zero",
    "StaticMath.C97_mat_is_zero",
    "StaticMath.C97_vec_is_zero_float",
    "StaticMath.C97_mat_float",
    "StaticMath.C97_bitand",
    "StaticMath.C97_is_zero_false",
    "StaticMath.C97_is_zero_partial"
   ],
   "note": "Exact reals and IEEE. False for dual quaternions: is_zero is ==, which compares the normalized flags, so an all-zero dual quaternion flagged normalized is not zero; proved for unflagged ones."
  },
  {
   "property": "C98",
   "status": "proved",
   "theorems": [
    "StaticMath.C98_compare_floats",
    "StaticMath.C98_compare_floats_float",
    "StaticMath.C98_check_elements",
    "StaticMath.C98_check_elements_float",
    "StaticMath.C98_compare_dual_quaternions",
    "StaticMath.C98_compare_dual_quaternions_float"
   ],
   "note": "Exact reals and IEEE (NaN operands included)."
  },
  {
   "property": "C99",
   "status": "proved",
   "theorems": [
    "StaticMath.C99_rotation_inverse"
   ],
   "note": ""
  },
  {
   "property": "C100",
   "status": "proved",
   "theorems": [
    "StaticMath.C100_vec_V2",
    "StaticMath.C100_vec_V3",
    "StaticMath.C100_vec_V4",
    "StaticMath.C100_vec_V5",
    "StaticMath.C100_vec_V6",
    "StaticMath.C100_mat_M22",
    "StaticMath.C100_mat_M33",
    "StaticMath.C100_mat_M44",
    "StaticMath.C100_mat_M55",
    "StaticMath.C100_mat_M66",
    "StaticMath.C100_new_from_M22",
    "StaticMath.C100_constants",
    "StaticMath.C100_quaternion"
   ],
   "note": "Any element type."
  },
  {
   "property": "C101",
   "status": "partial",
   "theorems": [
    "StaticMath.C101_display_false",
    "StaticMath.C101_display_V2",
    "StaticMath.C101_display_V3",
    "StaticMath.C101_display_V4",
    "StaticMath.C101_display_V5",
    "StaticMath.C101_display_V6",
    "StaticMath.C101_display_M22_partial",
    "StaticMath.C101_display_M33_partial",
    "StaticMath.C101_display_M44_partial",
    "StaticMath.C101_display_M55_partial",
    "StaticMath.C101_display_M66_partial",
    "StaticMath.C101_display_quaternion"
   ],
   "note": "False: formatting a matrix of any size prints a newline on stdout; proved: the destination text of every type, and no stdout output for vectors and quaternions. The text of one number is a parameter."
  },
  {
   "property": "C102",
   "status": "proved",
   "theorems": [
    "StaticMath.C102_det_M22",
    "StaticMath.C102_det_M33",
    "StaticMath.C102_det_M44",
    "StaticMath.C102_det_M55",
    "StaticMath.C102_det_M66"
   ],
   "note": "IEEE model, round to nearest even, every binary format; the exact value is Mathlib's Matrix.det of the real values of the entries."
  },
  {
   "property": "C103",
   "status": "proved",
   "theorems": [
    "StaticMath.C103_no_overflow_M22",
    "StaticMath.C103_no_overflow_M33",
    "StaticMath.C103_no_overflow_M44",
    "StaticMath.C103_no_overflow_M55",
    "StaticMath.C103_no_overflow_M66"
   ],
   "note": "IEEE model."
  },
  {
   "property": "C104",
   "status": "proved",
   "theorems": [
    "StaticMath.C104_integers_M22",
    "StaticMath.C104_integers_M33",
    "StaticMath.C104_integers_M44",
    "StaticMath.C104_integers_M55",
    "StaticMath.C104_integers_M66"
   ],
   "note": "IEEE model; f.p is 24 for f32 and 53 for f64."
  },
  {
   "property": "C105",
   "status": "proved",
   "theorems": [
    "StaticMath.C105_product",
    "StaticMath.C105_rotate",
    "StaticMath.C105_to_rotation",
    "StaticMath.C105_no_overflow",
    "StaticMath.C105_integers",
    "StaticMath.C105_chain"
   ],
   "note": "IEEE model; Hamilton product and norm are Mathlib's."
  },
  {
   "property": "C106",
   "status": "proved",
   "theorems": [
    "StaticMath.C106_V2",
    "StaticMath.C106_V3",
    "StaticMath.C106_V4",
    "StaticMath.C106_V5",
    "StaticMath.C106_V6",
    "StaticMath.C106_quaternion",
    "StaticMath.C106_quaternion_overflow"
   ],
   "note": "IEEE model with correctly rounded sqrt and division; no assumption on other libm functions."
  },
  {
   "property": "C107",
   "status": "proved",
   "theorems": [
    "StaticMath.C107_signs_M22",
    "StaticMath.C107_signs_M33",
    "StaticMath.C107_signs_M44",
    "StaticMath.C107_signs_M55",
    "StaticMath.C107_signs_M66",
    "StaticMath.C107_cross",
    "StaticMath.C107_quaternion",
    "StaticMath.C107_double_cover",
    "StaticMath.C107_dual",
    "StaticMath.C107_dual_double_cover"
   ],
   "note": "IEEE model; equality is Rust's == with NaN matching NaN."
  },
  {
   "property": "C108",
   "status": "proved",
   "theorems": [
    "StaticMath.C108_zero_line_M22",
    "StaticMath.C108_triangular_M22",
    "StaticMath.C108_zero_line_M33",
    "StaticMath.C108_triangular_M33",
    "StaticMath.C108_zero_line_M44",
    "StaticMath.C108_triangular_M44",
    "StaticMath.C108_zero_line_M55",
    "StaticMath.C108_triangular_M55",
    "StaticMath.C108_zero_line_M66",
    "StaticMath.C108_triangular_M66",
    "StaticMath.C108_cross",
    "StaticMath.C108_quaternion",
    "StaticMath.C108_dual",
    "StaticMath.C108_dual_compose",
    "StaticMath.C108_homogeneous",
    "StaticMath.C108_homogeneous_inverse",
    "StaticMath.C108_homogeneous_point",
    "StaticMath.C108_translation"
   ],
   "note": "IEEE model; no assumption on libm."
  },
  {
   "property": "C109",
   "status": "proved",
   "theorems": [
    "StaticMath.C109_rot2",
    "StaticMath.C109_rotx",
    "StaticMath.C109_roty",
    "StaticMath.C109_rotz",
    "StaticMath.C109_ksi",
    "StaticMath.C109_euler",
    "StaticMath.C109_quaternion_euler",
    "StaticMath.C109_axis_angle",
    "StaticMath.C109_euler_orthogonal"
   ],
   "note": "IEEE model; SinCosAcc f e is an explicit hypothesis on the library, shown satisfiable by the correctly rounded one."
  },
  {
   "property": "C110",
   "status": "proved",
   "theorems": [
    "StaticMath.C110_lu_M22",
    "StaticMath.C110_det_M22",
    "StaticMath.C110_lu_M33",
    "StaticMath.C110_det_M33",
    "StaticMath.C110_lu_M44",
    "StaticMath.C110_det_M44",
    "StaticMath.C110_lu_M55",
    "StaticMath.C110_det_M55",
    "StaticMath.C110_lu_M66",
    "StaticMath.C110_det_M66"
   ],
   "note": "IEEE model; holds whatever pivot order the code picks; sizes 2 to 6."
  },
  {
   "property": "C111",
   "status": "proved",
   "theorems": [
    "StaticMath.C111_lu_M22",
    "StaticMath.C111_lu_M33",
    "StaticMath.C111_lu_M44",
    "StaticMath.C111_lu_M55",
    "StaticMath.C111_lu_M66",
    "StaticMath.C111_qr_M22",
    "StaticMath.C111_qr_M33",
    "StaticMath.C111_qr_M44",
    "StaticMath.C111_qr_M55",
    "StaticMath.C111_qr_M66",
    "StaticMath.C111_axis_angle",
    "StaticMath.C111_rotation",
    "StaticMath.C111_axis_underflow",
    "StaticMath.C111_matrix_exponential",
    "StaticMath.C111_matrix_exponential6",
    "StaticMath.C111_quat_div",
    "StaticMath.C111_dual_inverse",
    "StaticMath.C111_dual_div",
    "StaticMath.C111_new_from_rot_trans",
    "StaticMath.C111_screw_lerp",
    "StaticMath.C111_norm_inf",
    "StaticMath.C111_adjoint"
   ],
   "note": "IEEE model; no finiteness hypothesis."
  },
  {
   "property": "C112",
   "status": "partial",
   "theorems": [
    "StaticMath.C112_sin_partial",
    "StaticMath.C112_sin_false"
   ],
   "note": "False of the code: argq divides by an infinite norm and returns zero, and sin then unwraps the inverse of zero. The partial theorem says this is the only panic."
  },
  {
   "property": "C113",
   "status": "proved",
   "theorems": [
    "StaticMath.C113_M22",
    "StaticMath.C113_M33",
    "StaticMath.C113_M44",
    "StaticMath.C113_M55",
    "StaticMath.C113_M66",
    "StaticMath.C113_finite_M22",
    "StaticMath.C113_finite_M33",
    "StaticMath.C113_finite_M44",
    "StaticMath.C113_finite_M55",
    "StaticMath.C113_finite_M66"
   ],
   "note": ""
  },
  {
   "property": "C114",
   "status": "proved",
   "theorems": [
    "StaticMath.C114_inverse_laws_M22",
    "StaticMath.C114_inverse_laws_M33",
    "StaticMath.C114_inverse_laws_M44",
    "StaticMath.C114_inverse_laws_M55",
    "StaticMath.C114_inverse_laws_M66"
   ],
   "note": ""
  },
  {
   "property": "C115",
   "status": "proved",
   "theorems": [
    "StaticMath.C115_similar_M22",
    "StaticMath.C115_similar_M33",
    "StaticMath.C115_similar_M44",
    "StaticMath.C115_similar_M55",
    "StaticMath.C115_similar_M66",
    "StaticMath.C115_eigenvals"
   ],
   "note": ""
  },
  {
   "property": "C116",
   "status": "proved",
   "theorems": [
    "StaticMath.C116_qr_unique_M22",
    "StaticMath.C116_qr_unique_M33",
    "StaticMath.C116_qr_unique_M44",
    "StaticMath.C116_qr_unique_M55",
    "StaticMath.C116_qr_unique_M66"
   ],
   "note": ""
  },
  {
   "property": "C117",
   "status": "proved",
   "theorems": [
    "StaticMath.C117_rotations",
    "StaticMath.C117_from_rotation",
    "StaticMath.C117_rigid"
   ],
   "note": ""
  },
  {
   "property": "C118",
   "status": "proved",
   "theorems": [
    "StaticMath.C118_euler_angles",
    "StaticMath.C118_euler_ranges",
    "StaticMath.C118_logarithms",
    "StaticMath.C118_axis_angle"
   ],
   "note": ""
  },
  {
   "property": "C119",
   "status": "proved",
   "theorems": [
    "StaticMath.C119_screw_lerp",
    "StaticMath.C119_slerp"
   ],
   "note": ""
  },
  {
   "property": "C120",
   "status": "proved",
   "theorems": [
    "StaticMath.C120_get_translation",
    "StaticMath.C120_dual_product",
    "StaticMath.C120_homogeneous_inverse",
    "StaticMath.C120_inverse_round_trip",
    "StaticMath.C120_cross",
    "StaticMath.C120_screw_to_axis",
    "StaticMath.C120_adjoint",
    "StaticMath.C120_no_overflow"
   ],
   "note": ""
  },
  {
   "property": "C121",
   "status": "proved",
   "theorems": [
    "StaticMath.C121_quat_components",
    "StaticMath.C121_dual_components",
    "StaticMath.C121_quat_flags",
    "StaticMath.C121_slerp_flag",
    "StaticMath.C121_dual_flags",
    "StaticMath.C121_array",
    "StaticMath.C121_point",
    "StaticMath.C121_get_axis",
    "StaticMath.C121_angle_scale",
    "StaticMath.C121_is_normalized",
    "StaticMath.C121_is_normalized_not_motion"
   ],
   "note": ""
  },
  {
   "property": "C122",
   "status": "partial",
   "theorems": [
    "StaticMath.C122_similar",
    "StaticMath.C122_backward",
    "StaticMath.C122_converges",
    "StaticMath.C122_terminates",
    "StaticMath.C122_reported_false",
    "StaticMath.C122_reported_partial"
   ],
   "note": "The last clause is false: check_elements asks for one small entry below the diagonal, so the loop can stop with values that are no eigenvalues (cyclic permutation matrix: prints 0, 0, 0 after one step); proved when every entry below the diagonal is zero, and as a backward error always. All other clauses are proved."
  },
  {
   "property": "C123",
   "status": "proved",
   "theorems": [
    "StaticMath.C123_rotate_four",
    "StaticMath.C123_euler_again",
    "StaticMath.C123_screw_parameters",
    "StaticMath.C123_transform_point",
    "StaticMath.C123_dual_quaternions",
    "StaticMath.C123_inverse",
    "StaticMath.C123_solve",
    "StaticMath.C123_for_each",
    "StaticMath.C123_nice_square",
    "StaticMath.C123_nice_square_i32",
    "StaticMath.C123_qr_M22",
    "StaticMath.C123_qr_M33",
    "StaticMath.C123_qr_M44",
    "StaticMath.C123_qr_M55",
    "StaticMath.C123_qr_M66"
   ],
   "note": ""
  },
  {
   "property": "C124",
   "status": "partial",
   "theorems": [
    "StaticMath.C124_orthogonal_M22_f32_false",
    "StaticMath.C124_nan_M22_f32_false",
    "StaticMath.C124_orthogonal_M22_f64_false",
    "StaticMath.C124_nan_M22_f64_false",
    "StaticMath.C124_orthogonal_M33_f32_false",
    "StaticMath.C124_nan_M33_f32_false",
    "StaticMath.C124_orthogonal_M33_f64_false",
    "StaticMath.C124_nan_M33_f64_false",
    "StaticMath.C124_orthogonal_M44_f32_false",
    "StaticMath.C124_nan_M44_f32_false",
    "StaticMath.C124_orthogonal_M44_f64_false",
    "StaticMath.C124_nan_M44_f64_false",
    "StaticMath.C124_orthogonal_M55_f32_false",
    "StaticMath.C124_nan_M55_f32_false",
    "StaticMath.C124_orthogonal_M55_f64_false",
    "StaticMath.C124_nan_M55_f64_false",
    "StaticMath.C124_orthogonal_M66_f32_false",
    "StaticMath.C124_nan_M66_f32_false",
    "StaticMath.C124_orthogonal_M66_f64_false",
    "StaticMath.C124_nan_M66_f64_false",
    "StaticMath.C124_columns_M22_partial",
    "StaticMath.C124_certificate_M22_partial",
    "StaticMath.C124_columns_M33_partial",
    "StaticMath.C124_certificate_M33_partial",
    "StaticMath.C124_columns_M44_partial",
    "StaticMath.C124_certificate_M44_partial",
    "StaticMath.C124_columns_M55_partial",
    "StaticMath.C124_certificate_M55_partial",
    "StaticMath.C124_columns_M66_partial",
    "StaticMath.C124_certificate_M66_partial"
   ],
   "note": "The first sentence is false in f32 and f64 and for every size: kernel-evaluated matrices of determinant 1 whose Q has columns with inner product above 0.9 in magnitude (and Q*R far from the matrix), and others whose Q has NaN entries; proved: the bounds on the columns and the certificate that orthogonality of Q implies a small residual."
  },
  {
   "property": "C125",
   "status": "partial",
   "theorems": [
    "StaticMath.C125_compare_floats",
    "StaticMath.C125_nearly_equal_sound",
    "StaticMath.C125_nearly_equal_complete",
    "StaticMath.C125_is_rotation_det",
    "StaticMath.C125_rounded_rotation_partial",
    "StaticMath.C125_rounded_rotation_f32_false",
    "StaticMath.C125_rounded_rotation_f64_false"
   ],
   "note": "The last clause is false: in f32 the correctly rounded rotation 1/3 [[1,-2,2],[2,-1,-2],[2,2,1]] is rejected, in f64 1/7 [[3,-2,6],[6,3,-2],[-2,6,3]]; proved for rotations with entries 0, 1 and -1. All other clauses are proved."
  },
  {
   "property": "C126",
   "status": "proved",
   "theorems": [
    "StaticMath.C126_from_rotation",
    "StaticMath.C126_to_rotation",
    "StaticMath.C126_matrix_round_trip",
    "StaticMath.C126_quaternion_round_trip",
    "StaticMath.C126_norm"
   ],
   "note": "Any IEEE format of precision at least 8 (11 for the quaternion round trip). R, delta, eps are universally quantified."
  },
  {
   "property": "C127",
   "status": "proved",
   "theorems": [
    "StaticMath.C127_rotation",
    "StaticMath.C127_rotation_matrix",
    "StaticMath.C127_norm_encoded",
    "StaticMath.C127_get_angle"
   ],
   "note": "The accuracy of sin, cos and atan2 is a hypothesis; a correctly rounded library is shown to meet it."
  },
  {
   "property": "C128",
   "status": "proved",
   "theorems": [
    "StaticMath.C128_quaternions",
    "StaticMath.C128_M22",
    "StaticMath.C128_M33",
    "StaticMath.C128_M44",
    "StaticMath.C128_M55",
    "StaticMath.C128_M66"
   ],
   "note": "The chain is a left fold over a list of arbitrary length. No finiteness of intermediate results is assumed."
  },
  {
   "property": "C129",
   "status": "partial",
   "theorems": [
    "StaticMath.C129_eigenvalues_partial",
    "StaticMath.C129_diagonal_false",
    "StaticMath.C129_small_eigenvalue_false"
   ],
   "note": "False of the code: see the two witnesses. The partial theorem bounds the error in terms of the exact discriminant."
  },
  {
   "property": "C130",
   "status": "proved",
   "theorems": [
    "StaticMath.C130_grid",
    "StaticMath.C130_sum",
    "StaticMath.C130_det_M22",
    "StaticMath.C130_mul_M22",
    "StaticMath.C130_mulVec_M22",
    "StaticMath.C130_dot_V2",
    "StaticMath.C130_norm2_V2",
    "StaticMath.C130_normalize_V2",
    "StaticMath.C130_det_M33",
    "StaticMath.C130_mul_M33",
    "StaticMath.C130_mulVec_M33",
    "StaticMath.C130_dot_V3",
    "StaticMath.C130_norm2_V3",
    "StaticMath.C130_normalize_V3",
    "StaticMath.C130_det_M44",
    "StaticMath.C130_mul_M44",
    "StaticMath.C130_mulVec_M44",
    "StaticMath.C130_dot_V4",
    "StaticMath.C130_norm2_V4",
    "StaticMath.C130_normalize_V4",
    "StaticMath.C130_det_M55",
    "StaticMath.C130_mul_M55",
    "StaticMath.C130_mulVec_M55",
    "StaticMath.C130_dot_V5",
    "StaticMath.C130_norm2_V5",
    "StaticMath.C130_normalize_V5",
    "StaticMath.C130_det_M66",
    "StaticMath.C130_mul_M66",
    "StaticMath.C130_mulVec_M66",
    "StaticMath.C130_dot_V6",
    "StaticMath.C130_norm2_V6",
    "StaticMath.C130_normalize_V6",
    "StaticMath.C130_cross",
    "StaticMath.C130_inverse_M22",
    "StaticMath.C130_inverse_M33"
   ],
   "note": "Inverses of sizes 4 to 6 are not treated. The hypotheses on finiteness are about results of the code, as overflow is what they exclude."
  },
  {
   "property": "C131",
   "status": "proved",
   "theorems": [
    "StaticMath.C131_matrix_exponential",
    "StaticMath.C131_orthogonal"
   ],
   "note": "sin and cos are not fixed by IEEE 754; their accuracy is a hypothesis."
  },
  {
   "property": "C132",
   "status": "partial",
   "theorems": [
    "StaticMath.C132_small_rotation_false",
    "StaticMath.C132_matrix_log_partial",
    "StaticMath.C132_round_trip_partial"
   ],
   "note": "False of the code: in f64 with correctly rounded sin and cos the rotation by 2^-27 about the third axis has a logarithm of exactly zero. Proved: an error bound of order (delta + eps + u) / sin^2 N for a matrix within delta of the exponential, when sin N >= 1/64. The accuracy of sin, cos and acos is a hypothesis."
  },
  {
   "property": "C133",
   "status": "partial",
   "theorems": [
    "StaticMath.C133_matrix_exponential6_partial",
    "StaticMath.C133_small_rotation_false"
   ],
   "note": "False of the code: in f64 with correctly rounded sin and cos the twist with rotation vector (0, 0, 2^-27) and translation (1, 0, 0) gives a second translation component of zero instead of about 2^-28. Proved: rotation block as in C131, translation within (7 eps + (190 N + 210) u) / N, last row exact. sin and cos accuracy is a hypothesis."
  },
  {
   "property": "C134",
   "status": "partial",
   "theorems": [
    "StaticMath.C134_rotation_to_euler_partial",
    "StaticMath.C134_round_trip_partial",
    "StaticMath.C134_near_gimbal_lock_false"
   ],
   "note": "False of the code: for every format of 11 bits or more there is a float matrix within 32 u of a rotation whose computed angles describe a rotation that is off by more than 1 in an entry, because next to gimbal lock yaw and roll are taken from entries that are only rounding noise. Proved: when the cosine s of the pitch is at least 64 (delta + eps + u) the rotation described by the angles is within 18 delta / s + 5 eps + 36 u, and the rebuilt float matrix within 19 delta / s + 12 eps + 49 u. Accuracy of atan2, sin, cos and FRAC_PI_2 is a hypothesis."
  },
  {
   "property": "C135",
   "status": "partial",
   "theorems": [
    "StaticMath.C135_slerp_partial",
    "StaticMath.C135_slerp_same_false"
   ],
   "note": "False of the code: in f64, whatever the library, normalising 1 + 2i + 4j + 10k gives a quaternion a whose computed dot product with itself is below 1, so slerp(a, a, 1) takes the branch that exchanges the last two entries and is off by more than 1/2, and slerp(a, -a, t) is the zero quaternion for every t. Proved: away from parallel and from orthogonal quaternions every entry is within 180 (delta + eps + u) / sin^2 of the exact interpolation. Accuracy of sin, cos and acos is a hypothesis."
  },
  {
   "property": "C136",
   "status": "proved",
   "theorems": [
    "StaticMath.C136_chain",
    "StaticMath.C136_to_homogeneous",
    "StaticMath.C136_chain_matrix",
    "StaticMath.C136_rot_trans",
    "StaticMath.C136_from_homogeneous",
    "StaticMath.C136_round_trip",
    "StaticMath.C136_matrix_chain"
   ],
   "note": "Chain: real part within g^n - 1 and dual part within n P (g^n - 1) with g = (1 + delta)(1 + 11 u), P half the largest translation; matrices in, matrix out: 5 (g^n - 1) + 17 u in the rotation entries and n P times that in the translation. transform_point is not part of it: it ignores the translation (C61)."
  },
  {
   "property": "C137",
   "status": "proved",
   "theorems": [
    "StaticMath.C137_chain",
    "StaticMath.C137_point",
    "StaticMath.C137_inverse",
    "StaticMath.C137_inverse_transform"
   ],
   "note": "Rotation block within g^n - 1 (Frobenius), translation within n P (g^n - 1) with g = (1 + delta)(1 + 13 u); a point of size Q is moved right to (P + Q)(eps + 15 u), the inverse has error (1 + eps)^2 (1 + 6 u) - 1, the inverse transform (P + Q)(4 eps + 31 u)."
  },
  {
   "property": "C138",
   "status": "proved",
   "theorems": [
    "StaticMath.C138_exp",
    "StaticMath.C138_exp_unit"
   ],
   "note": "Error at most e^re (6 eps + (16 |im| + 28) u); both branches of the code (above and below epsilon) are covered."
  },
  {
   "property": "C139",
   "status": "proved",
   "theorems": [
    "StaticMath.C139_ln",
    "StaticMath.C139_ln_unit",
    "StaticMath.C139_exp_ln",
    "StaticMath.C139_sqrt",
    "StaticMath.C139_unit",
    "StaticMath.C139_normalize_a",
    "StaticMath.C139_normalize_q"
   ],
   "note": "exp(ln q) within 4 eps + 95 u of q (exact exp), 12 eps + 205 u (computed exp), sqrt squared within 29 eps + 356 u, relative to the norm. The logarithm itself is not compared with an exact logarithm, because near -1 the two may point in different directions."
  },
  {
   "property": "C140",
   "status": "partial",
   "theorems": [
    "StaticMath.C140_get_parts_partial",
    "StaticMath.C140_to_euler_angles_partial",
    "StaticMath.C140_near_gimbal_lock_false"
   ],
   "note": "False of the code close to gimbal lock: for every format of 11 bits or more and every library accurate to 4u there is a pose within 32u of a rigid one whose get_parts quaternion stands for another rotation (an entry off by more than 1/2). Proved at a distance s (the cosine of the pitch) of at least 64 (delta + eps + u): the quaternion is within 27 delta / s + 15 eps + 62 u of the exact one up to sign, and the same for the angles of a quaternion. Accuracy of sin, cos, atan2 and FRAC_PI_2 is a hypothesis."
  },
  {
   "property": "C141",
   "status": "partial",
   "theorems": [
    "StaticMath.C141_pow_partial",
    "StaticMath.C141_screw_lerp_partial",
    "StaticMath.C141_same_motion_false"
   ],
   "note": "False of the code for equal motions: in double precision, interpolating from the rotation given by normalising 2 + i + j to itself gives eight NaN entries for every parameter (the computed real part of the relative motion is 1 + 2^-52, and acos of it is NaN). Proved when sin^2(theta/2) is at least 4096 times the input and library errors, with a bound growing like 1 / sin^2(theta/2), and for screw_lerp when the real part of the product of the two rotations is not close to zero or negative (see C69). Accuracy of sin, cos and acos is a hypothesis."
  },
  {
   "property": "C142",
   "status": "proved",
   "theorems": [
    "StaticMath.C142_wrap",
    "StaticMath.C142_sizes",
    "StaticMath.C142_add_M22",
    "StaticMath.C142_add_V2",
    "StaticMath.C142_sub_M22",
    "StaticMath.C142_sub_V2",
    "StaticMath.C142_neg_M22",
    "StaticMath.C142_smul_M22",
    "StaticMath.C142_dot_V2",
    "StaticMath.C142_mulVec_M22",
    "StaticMath.C142_mul_M22",
    "StaticMath.C142_mulMat_V2",
    "StaticMath.C142_add_M33",
    "StaticMath.C142_add_V3",
    "StaticMath.C142_sub_M33",
    "StaticMath.C142_sub_V3",
    "StaticMath.C142_neg_M33",
    "StaticMath.C142_smul_M33",
    "StaticMath.C142_dot_V3",
    "StaticMath.C142_mulVec_M33",
    "StaticMath.C142_mul_M33",
    "StaticMath.C142_add_M44",
    "StaticMath.C142_add_V4",
    "StaticMath.C142_sub_M44",
    "StaticMath.C142_sub_V4",
    "StaticMath.C142_neg_M44",
    "StaticMath.C142_smul_M44",
    "StaticMath.C142_dot_V4",
    "StaticMath.C142_mulVec_M44",
    "StaticMath.C142_mul_M44",
    "StaticMath.C142_mulMat_V4",
    "StaticMath.C142_add_M55",
    "StaticMath.C142_add_V5",
    "StaticMath.C142_sub_M55",
    "StaticMath.C142_sub_V5",
    "StaticMath.C142_neg_M55",
    "StaticMath.C142_smul_M55",
    "StaticMath.C142_dot_V5",
    "StaticMath.C142_mulVec_M55",
    "StaticMath.C142_mul_M55",
    "StaticMath.C142_mulMat_V5",
    "StaticMath.C142_add_M66",
    "StaticMath.C142_add_V6",
    "StaticMath.C142_sub_M66",
    "StaticMath.C142_sub_V6",
    "StaticMath.C142_neg_M66",
    "StaticMath.C142_smul_M66",
    "StaticMath.C142_dot_V6",
    "StaticMath.C142_mulVec_M66",
    "StaticMath.C142_mul_M66",
    "StaticMath.C142_cross",
    "StaticMath.C142_quaternions",
    "StaticMath.C142_dual_quaternions"
   ],
   "note": "For the row-vector times matrix products of V3 and V6 see C04 (the code is wrong there); the other sizes are included."
  },
  {
   "property": "C143",
   "status": "partial",
   "theorems": [
    "StaticMath.C143_parameters_partial",
    "StaticMath.C143_round_trip_partial",
    "StaticMath.C143_log_partial",
    "StaticMath.C143_translation_false"
   ],
   "note": "False of the code for pure translations, in every format: the computed moment is infinite, and new_from_screw_parameters of the computed parameters has NaN in all three entries of the dual vector part (infinity times sin 0). Proved when sin(theta/2) is at least 4096 times the input and library errors (8192 for log), with bounds 30 d/s for the axis, 248 P d/s for the displacement, 283 P d/s^2 for the moment, 41 d for the angle, 1000 d/s for the round trip (d the sum of the errors, s = sin(theta/2), P the size of the dual part). Accuracy of the library is a hypothesis; the tangent may overflow to an infinity near its pole."
  },
  {
   "property": "C144",
   "status": "proved",
   "theorems": [
    "StaticMath.C144_exp",
    "StaticMath.C144_log",
    "StaticMath.C144_slerp",
    "StaticMath.C144_screw",
    "StaticMath.C144_screw_axis",
    "StaticMath.C144_pow",
    "StaticMath.C144_screw_lerp"
   ],
   "note": ""
  },
  {
   "property": "C145",
   "status": "proved",
   "theorems": [
    "StaticMath.C145_cross",
    "StaticMath.C145_norm_l",
    "StaticMath.C145_quaternions",
    "StaticMath.C145_quaternions_fit",
    "StaticMath.C145_rotation",
    "StaticMath.C145_rotate",
    "StaticMath.C145_dual_quaternions",
    "StaticMath.C145_dual_quaternions_fit",
    "StaticMath.C145_translation",
    "StaticMath.C145_transform_point",
    "StaticMath.C145_scale_V2",
    "StaticMath.C145_scale_M22",
    "StaticMath.C145_scale_V3",
    "StaticMath.C145_scale_M33",
    "StaticMath.C145_scale_V4",
    "StaticMath.C145_scale_M44",
    "StaticMath.C145_scale_V5",
    "StaticMath.C145_scale_M55",
    "StaticMath.C145_scale_V6",
    "StaticMath.C145_scale_M66",
    "StaticMath.C145_scale_back"
   ],
   "note": ""
  },
  {
   "property": "C146",
   "status": "proved",
   "theorems": [
    "StaticMath.C146_M22",
    "StaticMath.C146_M33",
    "StaticMath.C146_M44",
    "StaticMath.C146_M55",
    "StaticMath.C146_M66",
    "StaticMath.C146_solve_linear_system"
   ],
   "note": ""
  },
  {
   "property": "C147",
   "status": "proved",
   "theorems": [
    "StaticMath.C147_find_max_min",
    "StaticMath.C147_norm_l",
    "StaticMath.C147_slice_dot",
    "StaticMath.C147_slice_norm2",
    "StaticMath.C147_slice_normalize",
    "StaticMath.C147_project"
   ],
   "note": ""
  },
  {
   "property": "C148",
   "status": "proved",
   "theorems": [
    "StaticMath.C148_V3_mulMat",
    "StaticMath.C148_inverse_none",
    "StaticMath.C148_norm_inf",
    "StaticMath.C148_lu_det",
    "StaticMath.C148_is_rotation",
    "StaticMath.C148_slerp_end",
    "StaticMath.C148_transform_point",
    "StaticMath.C148_div",
    "StaticMath.C148_pow_translation",
    "StaticMath.C148_matrix_exponential6",
    "StaticMath.C148_matrix_log"
   ],
   "note": ""
  },
  {
   "property": "C149",
   "status": "proved",
   "theorems": [
    "StaticMath.C149_det_M22",
    "StaticMath.C149_products_M22",
    "StaticMath.C149_inverse_M22",
    "StaticMath.C149_det_M33",
    "StaticMath.C149_products_M33",
    "StaticMath.C149_inverse_M33",
    "StaticMath.C149_det_M44",
    "StaticMath.C149_products_M44",
    "StaticMath.C149_inverse_M44",
    "StaticMath.C149_det_M55",
    "StaticMath.C149_products_M55",
    "StaticMath.C149_inverse_M55",
    "StaticMath.C149_det_M66",
    "StaticMath.C149_products_M66",
    "StaticMath.C149_inverse_M66",
    "StaticMath.C149_solve",
    "StaticMath.C149_quat_mul",
    "StaticMath.C149_quat",
    "StaticMath.C149_quat_mulVec",
    "StaticMath.C149_dual_mul",
    "StaticMath.C149_lost"
   ],
   "note": ""
  },
  {
   "property": "C150",
   "status": "partial",
   "theorems": [
    "StaticMath.C150_normalize",
    "StaticMath.C150_normalize_other",
    "StaticMath.C150_is_normalized_sound",
    "StaticMath.C150_is_normalized_complete",
    "StaticMath.C150_compare",
    "StaticMath.C150_product_partial",
    "StaticMath.C150_product_false"
   ],
   "note": "False of the code for products: in double precision the product of the rotations given by normalising -1+i+3j-8k and -1-2i+2j+5k has a real part of computed norm 1-2^-51, which is_normalized rejects. Proved: normalize is accurate to 5u, is_normalized implies a real norm within 9u of 1 (or a computed real norm below EPSILON), it accepts every computed real norm within 2u of 1 when the dual part is zero or in the normal range, products drift by at most 2 delta + delta^2 + 11u, and comparison."
  },
  {
   "property": "C151",
   "status": "proved",
   "theorems": [
    "StaticMath.C151_pow",
    "StaticMath.C151_integer_powers",
    "StaticMath.C151_derivative",
    "StaticMath.C151_derivative_finite"
   ],
   "note": ""
  },
  {
   "property": "C152",
   "status": "proved",
   "theorems": [
    "StaticMath.C152_M22",
    "StaticMath.C152_M33",
    "StaticMath.C152_M44",
    "StaticMath.C152_M55",
    "StaticMath.C152_M66"
   ],
   "note": ""
  },
  {
   "property": "C153",
   "status": "proved",
   "theorems": [
    "StaticMath.C153_accepts",
    "StaticMath.C153_sound"
   ],
   "note": ""
  },
  {
   "property": "C154",
   "status": "proved",
   "theorems": [
    "StaticMath.C154_mulMat_V2",
    "StaticMath.C154_trace_M22",
    "StaticMath.C154_norm2_V2",
    "StaticMath.C154_norm2_no_overflow_V2",
    "StaticMath.C154_mulMat_V3",
    "StaticMath.C154_trace_M33",
    "StaticMath.C154_norm2_V3",
    "StaticMath.C154_norm2_no_overflow_V3",
    "StaticMath.C154_mulMat_V4",
    "StaticMath.C154_trace_M44",
    "StaticMath.C154_norm2_V4",
    "StaticMath.C154_norm2_no_overflow_V4",
    "StaticMath.C154_mulMat_V5",
    "StaticMath.C154_trace_M55",
    "StaticMath.C154_norm2_V5",
    "StaticMath.C154_norm2_no_overflow_V5",
    "StaticMath.C154_mulMat_V6",
    "StaticMath.C154_trace_M66",
    "StaticMath.C154_norm2_V6",
    "StaticMath.C154_norm2_no_overflow_V6",
    "StaticMath.C154_norm2_M22",
    "StaticMath.C154_norm2_no_overflow_M22",
    "StaticMath.C154_norm2_M33",
    "StaticMath.C154_norm2_no_overflow_M33",
    "StaticMath.C154_norm2_M44",
    "StaticMath.C154_norm2_no_overflow_M44"
   ],
   "note": ""
  },
  {
   "property": "C155",
   "status": "proved",
   "theorems": [
    "StaticMath.C155_distance",
    "StaticMath.C155_near"
   ],
   "note": ""
  },
  {
   "property": "C156",
   "status": "proved",
   "theorems": [
    "StaticMath.C156_matrix_log6",
    "StaticMath.C156_round_trip",
    "StaticMath.C156_structure",
    "StaticMath.C156_translation"
   ],
   "note": "The range of angles is part of the statement; outside of it see C132 (small angles) and C82 (half turns)."
  },
  {
   "property": "C157",
   "status": "proved",
   "theorems": [
    "StaticMath.C157_euler_YZX",
    "StaticMath.C157_rotation_to_euler",
    "StaticMath.C157_matrix_log6",
    "StaticMath.C157_screw_lerp",
    "StaticMath.C157_is_normalized",
    "StaticMath.C157_inverse_flagged",
    "StaticMath.C157_compare_vecs"
   ],
   "note": "Equivalences for C38, C54, C64, C69, C70, C73, C82; exact reals."
  },
  {
   "property": "C158",
   "status": "proved",
   "theorems": [
    "StaticMath.C158_add_sub",
    "StaticMath.C158_scale",
    "StaticMath.C158_argq",
    "StaticMath.C158_cos",
    "StaticMath.C158_sin"
   ],
   "note": "IEEE model of arbitrary format; elementary functions assumed within eps (SinCosAcc, ExpAcc), shown satisfiable by the correctly rounded library."
  },
  {
   "property": "C159",
   "status": "proved",
   "theorems": [
    "StaticMath.C159_rotation",
    "StaticMath.C159_translation",
    "StaticMath.C159_dual"
   ],
   "note": "IEEE model of arbitrary format; square root correctly rounded."
  },
  {
   "property": "C160",
   "status": "proved",
   "theorems": [
    "StaticMath.C160_rotate",
    "StaticMath.C160_rotate_four",
    "StaticMath.C160_full_turn",
    "StaticMath.C160_example"
   ],
   "note": "IEEE model of arbitrary format; sin and cos of stated accuracy, square root correctly rounded."
  },
  {
   "property": "C161",
   "status": "proved",
   "theorems": [
    "StaticMath.C161_transform_point",
    "StaticMath.C161_norm",
    "StaticMath.C161_screw_parameters",
    "StaticMath.C161_screw_z",
    "StaticMath.C161_points",
    "StaticMath.C161_dual_quaternions"
   ],
   "note": "IEEE model of arbitrary format; sin, cos, tan and atan2 of stated accuracy. transform_point rotates only (C61); that is what is compared."
  },
  {
   "property": "C162",
   "status": "proved",
   "theorems": [
    "StaticMath.C162_axis_angle",
    "StaticMath.C162_axis_of_rotation",
    "StaticMath.C162_round_trip",
    "StaticMath.C162_abs_imag"
   ],
   "note": "IEEE model of arbitrary format; sin, cos and atan2 of stated accuracy. Angles closer to 0 or 2 pi, where get_axis may return None, are outside the hypotheses."
  },
  {
   "property": "C163",
   "status": "proved",
   "theorems": [
    "StaticMath.C163_exp_flag",
    "StaticMath.C163_flag_within",
    "StaticMath.C163_inverse"
   ],
   "note": "Exact real arithmetic. Complements C44, which is false as stated: the flag of exp is not exact, but no program gets further away than 11/10 EPSILON. Programs are those of the quaternion functions; normalize_a is private and enters through ln only."
  },
  {
   "property": "C164",
   "status": "proved",
   "theorems": [
    "StaticMath.C164_programs",
    "StaticMath.C164_same"
   ],
   "note": "Exact real arithmetic. The screw constructor asks for an angle of at least EPSILON because matrix_exponential6 takes smaller angles for zero (C144)."
  },
  {
   "property": "C165",
   "status": "proved",
   "theorems": [
    "StaticMath.C165_programs",
    "StaticMath.C165_rotate"
   ],
   "note": "IEEE model. Leaves are arbitrary floats near unit quaternions (the constructors give such by C109, C126, C127). Extends C128, which is about products from left to right."
  },
  {
   "property": "C166",
   "status": "proved",
   "theorems": [
    "StaticMath.C166_programs",
    "StaticMath.C166_matrix"
   ],
   "note": "IEEE model. Leaves are arbitrary floats near rigid motions (the constructors give such by C136). Extends C136, which is about products from left to right; the inverse of a dual quaternion that is not flagged and normalize are new."
  },
  {
   "property": "C167",
   "status": "proved",
   "theorems": [
    "StaticMath.C167_rotation_to_euler",
    "StaticMath.C167_to_euler_angles",
    "StaticMath.C167_euler_again"
   ],
   "note": "IEEE model. C134 and C140 bound the error of the rotation the angles describe, this is about the angles themselves. Near gimbal lock nothing of the kind holds (C134_near_gimbal_lock_false). Whole turns stay open because the library is only assumed to return atan2 up to whole turns."
  },
  {
   "property": "C168",
   "status": "proved",
   "theorems": [
    "StaticMath.C168_programs",
    "StaticMath.C168_agree"
   ],
   "note": "IEEE model. Extends C137 (products from left to right) and is the floating point version of C164; agreement uses C166."
  },
  {
   "property": "C169",
   "status": "proved",
   "theorems": [
    "StaticMath.C169_programs",
    "StaticMath.C169_agree"
   ],
   "note": "IEEE model. Extends C128 (products from left to right); agreement uses C165 and C126."
  }
 ]
}
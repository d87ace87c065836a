import Verif.Props.Agree
import Verif.Props.Checked
import Verif.Props.CheckedQuat
import Verif.Props.Compare
import Verif.Props.Construct
import Verif.Props.DualAlgebra
import Verif.Props.DualScrew
import Verif.Props.Euler
import Verif.Props.Examples
import Verif.Props.Extent
import Verif.Props.Extent2
import Verif.Props.Ieee
import Verif.Props.IeeeAxisAngle
import Verif.Props.IeeeAxisAngle6
import Verif.Props.IeeeChain
import Verif.Props.IeeeCompare
import Verif.Props.IeeeDet
import Verif.Props.IeeeDualNorm
import Verif.Props.IeeeEigen
import Verif.Props.IeeeEuler
import Verif.Props.IeeeEulerAgain
import Verif.Props.IeeeExamples
import Verif.Props.IeeeExamples2
import Verif.Props.IeeeExp
import Verif.Props.IeeeExp6
import Verif.Props.IeeeFromRot
import Verif.Props.IeeeGetAxis
import Verif.Props.IeeeHomog
import Verif.Props.IeeeHomogPrograms
import Verif.Props.IeeeInv
import Verif.Props.IeeeInvInt
import Verif.Props.IeeeLog
import Verif.Props.IeeeLog6
import Verif.Props.IeeeLu
import Verif.Props.IeeeManifold
import Verif.Props.IeeeMatNorm
import Verif.Props.IeeeMotion
import Verif.Props.IeeeMotionBuild
import Verif.Props.IeeeMotionPrograms
import Verif.Props.IeeeNan
import Verif.Props.IeeeNorm
import Verif.Props.IeeePanic
import Verif.Props.IeeeParts
import Verif.Props.IeeePose
import Verif.Props.IeeeQr
import Verif.Props.IeeeQuat
import Verif.Props.IeeeQuatExp
import Verif.Props.IeeeQuatLn
import Verif.Props.IeeeQuatNorm
import Verif.Props.IeeeQuatPow
import Verif.Props.IeeeQuatPrograms
import Verif.Props.IeeeQuatTrig
import Verif.Props.IeeeResid
import Verif.Props.IeeeRigid
import Verif.Props.IeeeRot
import Verif.Props.IeeeRotPrograms
import Verif.Props.IeeeScale
import Verif.Props.IeeeScrew
import Verif.Props.IeeeScrewPar
import Verif.Props.IeeeSlerp
import Verif.Props.IeeeSlices
import Verif.Props.IeeeSym
import Verif.Props.Inverse
import Verif.Props.Isometry
import Verif.Props.Laws
import Verif.Props.Lie
import Verif.Props.Lie6
import Verif.Props.Lu
import Verif.Props.MotionPrograms
import Verif.Props.Qr
import Verif.Props.QrIter
import Verif.Props.QuatAlgebra
import Verif.Props.QuatAnalysis
import Verif.Props.QuatBuild
import Verif.Props.QuatBuilt2
import Verif.Props.QuatRotation
import Verif.Props.Ring
import Verif.Props.Slices
import Verif.Props.Transform
import Verif.Props.Vector
import Verif.Props.Views
import Verif.Props.Wrap
import Verif.Props.ZeroTests

/-! # Axioms used by each property theorem (printed during the build) -/

#print axioms StaticMath.C01_mul_M22
#print axioms StaticMath.C01_mul_M33
#print axioms StaticMath.C01_mul_M44
#print axioms StaticMath.C01_mul_M55
#print axioms StaticMath.C01_mul_M66
#print axioms StaticMath.C02_ring_M22
#print axioms StaticMath.C02_ring_M33
#print axioms StaticMath.C02_ring_M44
#print axioms StaticMath.C02_ring_M55
#print axioms StaticMath.C02_ring_M66
#print axioms StaticMath.C03_mulVec_M22
#print axioms StaticMath.C03_mulVec_M33
#print axioms StaticMath.C03_mulVec_M44
#print axioms StaticMath.C03_mulVec_M55
#print axioms StaticMath.C03_mulVec_M66
#print axioms StaticMath.C04_vecMul_V2_partial
#print axioms StaticMath.C04_vecMul_V4_partial
#print axioms StaticMath.C04_vecMul_V5_partial
#print axioms StaticMath.C04_vecMul_V6_partial
#print axioms StaticMath.C04_vecMul_V3_is_mulVec
#print axioms StaticMath.C04_vecMul_V3_false
#print axioms StaticMath.C05_transpose_M22
#print axioms StaticMath.C05_transpose_linear_M22
#print axioms StaticMath.C05_transpose_mul_M22
#print axioms StaticMath.C05_transpose_M33
#print axioms StaticMath.C05_transpose_linear_M33
#print axioms StaticMath.C05_transpose_mul_M33
#print axioms StaticMath.C05_transpose_M44
#print axioms StaticMath.C05_transpose_linear_M44
#print axioms StaticMath.C05_transpose_mul_M44
#print axioms StaticMath.C05_transpose_M55
#print axioms StaticMath.C05_transpose_linear_M55
#print axioms StaticMath.C05_transpose_mul_M55
#print axioms StaticMath.C05_transpose_M66
#print axioms StaticMath.C05_transpose_linear_M66
#print axioms StaticMath.C05_transpose_mul_M66
#print axioms StaticMath.C06_det_M22
#print axioms StaticMath.C06_det_M33
#print axioms StaticMath.C06_det_M44
#print axioms StaticMath.C06_det_M55
#print axioms StaticMath.C06_det_M66
#print axioms StaticMath.C07_det_M22
#print axioms StaticMath.C07_det_M33
#print axioms StaticMath.C07_det_M44
#print axioms StaticMath.C07_det_M55
#print axioms StaticMath.C07_det_M66
#print axioms StaticMath.C08_inverse_M22
#print axioms StaticMath.C08_inverse_M33
#print axioms StaticMath.C08_inverse_M44
#print axioms StaticMath.C08_inverse_M55
#print axioms StaticMath.C08_inverse_M66
#print axioms StaticMath.C09_inverse_M22
#print axioms StaticMath.C09_inverse_M33
#print axioms StaticMath.C09_inverse_M44
#print axioms StaticMath.C09_inverse_M55
#print axioms StaticMath.C09_inverse_M66
#print axioms StaticMath.C10_inverse_M22_false
#print axioms StaticMath.C10_inverse_M22_partial
#print axioms StaticMath.C10_inverse_M33_false
#print axioms StaticMath.C10_inverse_M33_partial
#print axioms StaticMath.C10_inverse_M44_false
#print axioms StaticMath.C10_inverse_M44_partial
#print axioms StaticMath.C10_inverse_M55_false
#print axioms StaticMath.C10_inverse_M55_partial
#print axioms StaticMath.C10_inverse_M66_false
#print axioms StaticMath.C10_inverse_M66_partial
#print axioms StaticMath.C10_scaling_false
#print axioms StaticMath.C11_solve_M22
#print axioms StaticMath.C11_solve_M33
#print axioms StaticMath.C11_solve_M44
#print axioms StaticMath.C11_solve_M55
#print axioms StaticMath.C11_solve_M66
#print axioms StaticMath.C12_trace_M22
#print axioms StaticMath.C12_trace_M33
#print axioms StaticMath.C12_trace_M44
#print axioms StaticMath.C12_trace_M55
#print axioms StaticMath.C12_trace_M66
#print axioms StaticMath.C13_norm2_M22
#print axioms StaticMath.C13_norm2_M33
#print axioms StaticMath.C13_norm2_M44
#print axioms StaticMath.C13_norm2_M55
#print axioms StaticMath.C13_norm2_M66
#print axioms StaticMath.C14_dot_V2
#print axioms StaticMath.C14_norm2_V2
#print axioms StaticMath.C14_dot_V3
#print axioms StaticMath.C14_norm2_V3
#print axioms StaticMath.C14_dot_V4
#print axioms StaticMath.C14_norm2_V4
#print axioms StaticMath.C14_dot_V5
#print axioms StaticMath.C14_norm2_V5
#print axioms StaticMath.C14_dot_V6
#print axioms StaticMath.C14_norm2_V6
#print axioms StaticMath.C15_normalize_V2
#print axioms StaticMath.C15_normalize_V3
#print axioms StaticMath.C15_normalize_V4
#print axioms StaticMath.C15_normalize_V5
#print axioms StaticMath.C15_normalize_V6
#print axioms StaticMath.C16_module_V2
#print axioms StaticMath.C16_sdiv_V2
#print axioms StaticMath.C16_module_V3
#print axioms StaticMath.C16_sdiv_V3
#print axioms StaticMath.C16_module_V4
#print axioms StaticMath.C16_sdiv_V4
#print axioms StaticMath.C16_module_V5
#print axioms StaticMath.C16_sdiv_V5
#print axioms StaticMath.C16_module_V6
#print axioms StaticMath.C16_sdiv_V6
#print axioms StaticMath.C17_cross
#print axioms StaticMath.C18_norm_inf_false
#print axioms StaticMath.C18_norm_inf_partial
#print axioms StaticMath.C19_norm_l_slice
#print axioms StaticMath.C19_norm_l
#print axioms StaticMath.C20_find_max_min
#print axioms StaticMath.C21_views_M22
#print axioms StaticMath.C21_views_M33
#print axioms StaticMath.C21_views_M44
#print axioms StaticMath.C21_views_M55
#print axioms StaticMath.C21_views_M66
#print axioms StaticMath.C22_diag_M22
#print axioms StaticMath.C22_diag_tri_M33
#print axioms StaticMath.C22_determine_M33
#print axioms StaticMath.C22_diag_tri_M44
#print axioms StaticMath.C22_determine_M44
#print axioms StaticMath.C22_diag_tri_M55
#print axioms StaticMath.C22_determine_M55
#print axioms StaticMath.C22_diag_tri_M66
#print axioms StaticMath.C22_determine_M66
#print axioms StaticMath.C23_submatrix_M44
#print axioms StaticMath.C23_submatrix_M55
#print axioms StaticMath.C23_submatrix_M66
#print axioms StaticMath.C24_for_each_M22
#print axioms StaticMath.C24_for_each_M33
#print axioms StaticMath.C24_for_each_M44
#print axioms StaticMath.C24_for_each_M55
#print axioms StaticMath.C24_for_each_M66
#print axioms StaticMath.C25_vec
#print axioms StaticMath.C25_mat
#print axioms StaticMath.C25_rows
#print axioms StaticMath.C26_smul_M22
#print axioms StaticMath.C26_sdiv_M22
#print axioms StaticMath.C26_smul_M33
#print axioms StaticMath.C26_sdiv_M33
#print axioms StaticMath.C26_smul_M44
#print axioms StaticMath.C26_sdiv_M44
#print axioms StaticMath.C26_smul_M55
#print axioms StaticMath.C26_sdiv_M55
#print axioms StaticMath.C26_smul_M66
#print axioms StaticMath.C26_sdiv_M66
#print axioms StaticMath.C26_left_M22
#print axioms StaticMath.C26_left_M33
#print axioms StaticMath.C27_copy_elements_from
#print axioms StaticMath.C28_lu_M22
#print axioms StaticMath.C28_lu_M33
#print axioms StaticMath.C28_lu_M44
#print axioms StaticMath.C28_lu_M55
#print axioms StaticMath.C28_lu_M66
#print axioms StaticMath.C29_lu_M22_false
#print axioms StaticMath.C29_lu_M22_partial
#print axioms StaticMath.C29_lu_M33_false
#print axioms StaticMath.C29_lu_M33_partial
#print axioms StaticMath.C29_lu_M44_false
#print axioms StaticMath.C29_lu_M44_partial
#print axioms StaticMath.C29_lu_M55_false
#print axioms StaticMath.C29_lu_M55_partial
#print axioms StaticMath.C29_lu_M66_false
#print axioms StaticMath.C29_lu_M66_partial
#print axioms StaticMath.C30_lu_M22_false
#print axioms StaticMath.C30_lu_M22_partial
#print axioms StaticMath.C30_lu_M33_false
#print axioms StaticMath.C30_lu_M33_partial
#print axioms StaticMath.C30_lu_M44_false
#print axioms StaticMath.C30_lu_M44_partial
#print axioms StaticMath.C30_lu_M55_false
#print axioms StaticMath.C30_lu_M55_partial
#print axioms StaticMath.C30_lu_M66_false
#print axioms StaticMath.C30_lu_M66_partial
#print axioms StaticMath.C31_pivots_M22
#print axioms StaticMath.C31_pivots_M33
#print axioms StaticMath.C31_pivots_M44
#print axioms StaticMath.C31_pivots_M55
#print axioms StaticMath.C31_pivots_M66
#print axioms StaticMath.C32_qr_M22
#print axioms StaticMath.C32_qr_M33
#print axioms StaticMath.C32_qr_M44
#print axioms StaticMath.C32_qr_M55
#print axioms StaticMath.C32_qr_M66
#print axioms StaticMath.C33_real_eigenvals
#print axioms StaticMath.C34_nearly_equal_symm
#print axioms StaticMath.C34_nearly_equal_refl
#print axioms StaticMath.C34_nearly_equal_nan
#print axioms StaticMath.C35_nearly_equal
#print axioms StaticMath.C35_scaling
#print axioms StaticMath.C36_tiny_false
#print axioms StaticMath.C36_tiny_partial
#print axioms StaticMath.C37_nearly_zero
#print axioms StaticMath.C37_nearly_zero_float
#print axioms StaticMath.C38_compare_vecs_false
#print axioms StaticMath.C38_compare_vecs_partial
#print axioms StaticMath.C39_is_rotation_partial
#print axioms StaticMath.C39_is_rotation_h_partial
#print axioms StaticMath.C39_is_rotation_det_partial
#print axioms StaticMath.C39_is_rotation_false
#print axioms StaticMath.C40_dot
#print axioms StaticMath.C40_norm2
#print axioms StaticMath.C40_normalize
#print axioms StaticMath.C40_project
#print axioms StaticMath.C41_hamilton
#print axioms StaticMath.C41_sdiv
#print axioms StaticMath.C42_norm
#print axioms StaticMath.C42_norm2
#print axioms StaticMath.C43_eq_false
#print axioms StaticMath.C43_eq_partial
#print axioms StaticMath.C44_flag_exp_false
#print axioms StaticMath.C44_flag_partial
#print axioms StaticMath.C44_built_partial
#print axioms StaticMath.C45_inverse
#print axioms StaticMath.C45_div
#print axioms StaticMath.C46_normalize
#print axioms StaticMath.C46_idempotent
#print axioms StaticMath.C47_mulVec
#print axioms StaticMath.C48_to_rotation
#print axioms StaticMath.C48_double_cover
#print axioms StaticMath.C49_from_rotation
#print axioms StaticMath.C50_round_trip
#print axioms StaticMath.C51_rotation
#print axioms StaticMath.C51_norm_encoded
#print axioms StaticMath.C52_axis_angle
#print axioms StaticMath.C53_from_euler_angles
#print axioms StaticMath.C54_rotation_to_euler_partial
#print axioms StaticMath.C54_rotation_to_euler_false
#print axioms StaticMath.C54_to_euler_angles_partial
#print axioms StaticMath.C55_exp
#print axioms StaticMath.C56_exp_ln
#print axioms StaticMath.C57_sqrt
#print axioms StaticMath.C58_slerp_end_false
#print axioms StaticMath.C58_slerp_zero_false
#print axioms StaticMath.C58_slerp_partial
#print axioms StaticMath.C59_derivative
#print axioms StaticMath.C60_dual_numbers
#print axioms StaticMath.C60_conj
#print axioms StaticMath.C61_rot_trans_partial
#print axioms StaticMath.C61_translation_rotation_partial
#print axioms StaticMath.C61_transform_point_false
#print axioms StaticMath.C62_product_partial
#print axioms StaticMath.C62_transform_point_false
#print axioms StaticMath.C63_homogeneous
#print axioms StaticMath.C63_rotation_matrix
#print axioms StaticMath.C64_inverse_partial
#print axioms StaticMath.C64_flags_partial
#print axioms StaticMath.C64_inverse_false
#print axioms StaticMath.C65_normalize_partial
#print axioms StaticMath.C65_flagged
#print axioms StaticMath.C65_normalize_false
#print axioms StaticMath.C66_div_self
#print axioms StaticMath.C66_div_partial
#print axioms StaticMath.C66_div_false
#print axioms StaticMath.C67_screw
#print axioms StaticMath.C67_pow_partial
#print axioms StaticMath.C67_pow_translation_partial
#print axioms StaticMath.C67_pow_false
#print axioms StaticMath.C68_from_parameters
#print axioms StaticMath.C68_round_trip
#print axioms StaticMath.C69_screw_lerp_partial
#print axioms StaticMath.C69_begin_false
#print axioms StaticMath.C69_end_false
#print axioms StaticMath.C70_is_normalized_partial
#print axioms StaticMath.C70_is_normalized_false
#print axioms StaticMath.C71_log_partial
#print axioms StaticMath.C71_log_false
#print axioms StaticMath.C72_rot2
#print axioms StaticMath.C72_rotx
#print axioms StaticMath.C72_roty
#print axioms StaticMath.C72_rotz
#print axioms StaticMath.C73_euler_to_rotation_partial
#print axioms StaticMath.C73_euler_to_rotation_false
#print axioms StaticMath.C74_homogeneous
#print axioms StaticMath.C74_get_parts
#print axioms StaticMath.C75_homogeneous_inverse
#print axioms StaticMath.C76_homogeneous_inverse_transform
#print axioms StaticMath.C77_skew
#print axioms StaticMath.C77_skew_small
#print axioms StaticMath.C78_rodrigues
#print axioms StaticMath.C79_matrix_exponential
#print axioms StaticMath.C80_matrix_log_partial
#print axioms StaticMath.C80_matrix_log_false
#print axioms StaticMath.C80_matrix_log_small_false
#print axioms StaticMath.C81_matrix_exponential6_partial
#print axioms StaticMath.C81_matrix_exponential6_false
#print axioms StaticMath.C82_matrix_log6_partial
#print axioms StaticMath.C82_matrix_log6_false
#print axioms StaticMath.C83_adjoint
#print axioms StaticMath.C84_twists
#print axioms StaticMath.C85_distance_to_manifold
#print axioms StaticMath.C86_axis_angle
#print axioms StaticMath.C86_axis_angle6
#print axioms StaticMath.C86_screw_to_axis
#print axioms StaticMath.C87_get_parts_partial
#print axioms StaticMath.C87_get_parts_false
#print axioms StaticMath.C88_ksi
#print axioms StaticMath.C88_translation
#print axioms StaticMath.C89_mul_one_M22
#print axioms StaticMath.C89_one_mul_M22
#print axioms StaticMath.C89_one_mulVec_M22
#print axioms StaticMath.C89_mul_one_M33
#print axioms StaticMath.C89_one_mul_M33
#print axioms StaticMath.C89_one_mulVec_M33
#print axioms StaticMath.C89_mul_one_M44
#print axioms StaticMath.C89_one_mul_M44
#print axioms StaticMath.C89_one_mulVec_M44
#print axioms StaticMath.C89_mul_one_M55
#print axioms StaticMath.C89_one_mul_M55
#print axioms StaticMath.C89_one_mulVec_M55
#print axioms StaticMath.C89_mul_one_M66
#print axioms StaticMath.C89_one_mul_M66
#print axioms StaticMath.C89_one_mulVec_M66
#print axioms StaticMath.C90_V2
#print axioms StaticMath.C90_transpose_M22
#print axioms StaticMath.C90_transpose_mul_M22
#print axioms StaticMath.C90_V3
#print axioms StaticMath.C90_transpose_M33
#print axioms StaticMath.C90_transpose_mul_M33
#print axioms StaticMath.C90_V4
#print axioms StaticMath.C90_transpose_M44
#print axioms StaticMath.C90_transpose_mul_M44_differs
#print axioms StaticMath.C90_V5
#print axioms StaticMath.C90_transpose_M55
#print axioms StaticMath.C90_transpose_mul_M55
#print axioms StaticMath.C90_V6
#print axioms StaticMath.C90_transpose_M66
#print axioms StaticMath.C90_transpose_mul_M66
#print axioms StaticMath.C91_M22
#print axioms StaticMath.C91_M33
#print axioms StaticMath.C91_M44
#print axioms StaticMath.C91_M55
#print axioms StaticMath.C91_M66
#print axioms StaticMath.C92_V2
#print axioms StaticMath.C92_witness_V2
#print axioms StaticMath.C92_V3
#print axioms StaticMath.C92_witness_V3
#print axioms StaticMath.C92_V4
#print axioms StaticMath.C92_witness_V4
#print axioms StaticMath.C92_V5
#print axioms StaticMath.C92_witness_V5
#print axioms StaticMath.C92_V6
#print axioms StaticMath.C92_witness_V6
#print axioms StaticMath.C93_dot_V2
#print axioms StaticMath.C93_mulVec_M22
#print axioms StaticMath.C93_mul_M22
#print axioms StaticMath.C93_dot_V3
#print axioms StaticMath.C93_mulVec_M33
#print axioms StaticMath.C93_mul_M33
#print axioms StaticMath.C93_dot_V4
#print axioms StaticMath.C93_mulVec_M44
#print axioms StaticMath.C93_mul_M44
#print axioms StaticMath.C93_dot_V5
#print axioms StaticMath.C93_mulVec_M55
#print axioms StaticMath.C93_mul_M55
#print axioms StaticMath.C93_dot_V6
#print axioms StaticMath.C93_mulVec_M66
#print axioms StaticMath.C93_mul_M66
#print axioms StaticMath.C94_add_M22
#print axioms StaticMath.C94_add_V2
#print axioms StaticMath.C94_sub_M22
#print axioms StaticMath.C94_sub_V2
#print axioms StaticMath.C94_dot_V2
#print axioms StaticMath.C94_mulVec_M22
#print axioms StaticMath.C94_mul_M22
#print axioms StaticMath.C94_add_M33
#print axioms StaticMath.C94_add_V3
#print axioms StaticMath.C94_sub_M33
#print axioms StaticMath.C94_sub_V3
#print axioms StaticMath.C94_dot_V3
#print axioms StaticMath.C94_mulVec_M33
#print axioms StaticMath.C94_mul_M33
#print axioms StaticMath.C94_add_M44
#print axioms StaticMath.C94_add_V4
#print axioms StaticMath.C94_sub_M44
#print axioms StaticMath.C94_sub_V4
#print axioms StaticMath.C94_dot_V4
#print axioms StaticMath.C94_mulVec_M44
#print axioms StaticMath.C94_mul_M44
#print axioms StaticMath.C94_add_M55
#print axioms StaticMath.C94_add_V5
#print axioms StaticMath.C94_sub_M55
#print axioms StaticMath.C94_sub_V5
#print axioms StaticMath.C94_dot_V5
#print axioms StaticMath.C94_mulVec_M55
#print axioms StaticMath.C94_mul_M55
#print axioms StaticMath.C94_add_M66
#print axioms StaticMath.C94_add_V6
#print axioms StaticMath.C94_sub_M66
#print axioms StaticMath.C94_sub_V6
#print axioms StaticMath.C94_dot_V6
#print axioms StaticMath.C94_mulVec_M66
#print axioms StaticMath.C94_mul_M66
#print axioms StaticMath.C95_no_panic
#print axioms StaticMath.C95_sin_cos
#print axioms StaticMath.C96_pow
#print axioms StaticMath.C97_elementwise
#print axioms StaticMath.C97_vec_eq
#print axioms StaticMath.C97_mat_eq
#print axioms StaticMath.C97_vec_eq_float
#print axioms StaticMath.C97_vec_is_zero
#print axioms StaticMath.C97_mat_is_zero
#print axioms StaticMath.C97_vec_is_zero_float
#print axioms StaticMath.C97_mat_float
#print axioms StaticMath.C97_bitand
#print axioms StaticMath.C97_is_zero_false
#print axioms StaticMath.C97_is_zero_partial
#print axioms StaticMath.C98_compare_floats
#print axioms StaticMath.C98_compare_floats_float
#print axioms StaticMath.C98_check_elements
#print axioms StaticMath.C98_check_elements_float
#print axioms StaticMath.C98_compare_dual_quaternions
#print axioms StaticMath.C98_compare_dual_quaternions_float
#print axioms StaticMath.C99_rotation_inverse
#print axioms StaticMath.C100_vec_V2
#print axioms StaticMath.C100_vec_V3
#print axioms StaticMath.C100_vec_V4
#print axioms StaticMath.C100_vec_V5
#print axioms StaticMath.C100_vec_V6
#print axioms StaticMath.C100_mat_M22
#print axioms StaticMath.C100_mat_M33
#print axioms StaticMath.C100_mat_M44
#print axioms StaticMath.C100_mat_M55
#print axioms StaticMath.C100_mat_M66
#print axioms StaticMath.C100_new_from_M22
#print axioms StaticMath.C100_constants
#print axioms StaticMath.C100_quaternion
#print axioms StaticMath.C101_display_false
#print axioms StaticMath.C101_display_V2
#print axioms StaticMath.C101_display_V3
#print axioms StaticMath.C101_display_V4
#print axioms StaticMath.C101_display_V5
#print axioms StaticMath.C101_display_V6
#print axioms StaticMath.C101_display_M22_partial
#print axioms StaticMath.C101_display_M33_partial
#print axioms StaticMath.C101_display_M44_partial
#print axioms StaticMath.C101_display_M55_partial
#print axioms StaticMath.C101_display_M66_partial
#print axioms StaticMath.C101_display_quaternion
#print axioms StaticMath.C102_det_M22
#print axioms StaticMath.C102_det_M33
#print axioms StaticMath.C102_det_M44
#print axioms StaticMath.C102_det_M55
#print axioms StaticMath.C102_det_M66
#print axioms StaticMath.C103_no_overflow_M22
#print axioms StaticMath.C103_no_overflow_M33
#print axioms StaticMath.C103_no_overflow_M44
#print axioms StaticMath.C103_no_overflow_M55
#print axioms StaticMath.C103_no_overflow_M66
#print axioms StaticMath.C104_integers_M22
#print axioms StaticMath.C104_integers_M33
#print axioms StaticMath.C104_integers_M44
#print axioms StaticMath.C104_integers_M55
#print axioms StaticMath.C104_integers_M66
#print axioms StaticMath.C105_product
#print axioms StaticMath.C105_rotate
#print axioms StaticMath.C105_to_rotation
#print axioms StaticMath.C105_no_overflow
#print axioms StaticMath.C105_integers
#print axioms StaticMath.C105_chain
#print axioms StaticMath.C106_V2
#print axioms StaticMath.C106_V3
#print axioms StaticMath.C106_V4
#print axioms StaticMath.C106_V5
#print axioms StaticMath.C106_V6
#print axioms StaticMath.C106_quaternion
#print axioms StaticMath.C106_quaternion_overflow
#print axioms StaticMath.C107_signs_M22
#print axioms StaticMath.C107_signs_M33
#print axioms StaticMath.C107_signs_M44
#print axioms StaticMath.C107_signs_M55
#print axioms StaticMath.C107_signs_M66
#print axioms StaticMath.C107_cross
#print axioms StaticMath.C107_quaternion
#print axioms StaticMath.C107_double_cover
#print axioms StaticMath.C107_dual
#print axioms StaticMath.C107_dual_double_cover
#print axioms StaticMath.C108_zero_line_M22
#print axioms StaticMath.C108_triangular_M22
#print axioms StaticMath.C108_zero_line_M33
#print axioms StaticMath.C108_triangular_M33
#print axioms StaticMath.C108_zero_line_M44
#print axioms StaticMath.C108_triangular_M44
#print axioms StaticMath.C108_zero_line_M55
#print axioms StaticMath.C108_triangular_M55
#print axioms StaticMath.C108_zero_line_M66
#print axioms StaticMath.C108_triangular_M66
#print axioms StaticMath.C108_cross
#print axioms StaticMath.C108_quaternion
#print axioms StaticMath.C108_dual
#print axioms StaticMath.C108_dual_compose
#print axioms StaticMath.C108_homogeneous
#print axioms StaticMath.C108_homogeneous_inverse
#print axioms StaticMath.C108_homogeneous_point
#print axioms StaticMath.C108_translation
#print axioms StaticMath.C109_rot2
#print axioms StaticMath.C109_rotx
#print axioms StaticMath.C109_roty
#print axioms StaticMath.C109_rotz
#print axioms StaticMath.C109_ksi
#print axioms StaticMath.C109_euler
#print axioms StaticMath.C109_quaternion_euler
#print axioms StaticMath.C109_axis_angle
#print axioms StaticMath.C109_euler_orthogonal
#print axioms StaticMath.C110_lu_M22
#print axioms StaticMath.C110_det_M22
#print axioms StaticMath.C110_lu_M33
#print axioms StaticMath.C110_det_M33
#print axioms StaticMath.C110_lu_M44
#print axioms StaticMath.C110_det_M44
#print axioms StaticMath.C110_lu_M55
#print axioms StaticMath.C110_det_M55
#print axioms StaticMath.C110_lu_M66
#print axioms StaticMath.C110_det_M66
#print axioms StaticMath.C111_lu_M22
#print axioms StaticMath.C111_lu_M33
#print axioms StaticMath.C111_lu_M44
#print axioms StaticMath.C111_lu_M55
#print axioms StaticMath.C111_lu_M66
#print axioms StaticMath.C111_qr_M22
#print axioms StaticMath.C111_qr_M33
#print axioms StaticMath.C111_qr_M44
#print axioms StaticMath.C111_qr_M55
#print axioms StaticMath.C111_qr_M66
#print axioms StaticMath.C111_axis_angle
#print axioms StaticMath.C111_rotation
#print axioms StaticMath.C111_axis_underflow
#print axioms StaticMath.C111_matrix_exponential
#print axioms StaticMath.C111_matrix_exponential6
#print axioms StaticMath.C111_quat_div
#print axioms StaticMath.C111_dual_inverse
#print axioms StaticMath.C111_dual_div
#print axioms StaticMath.C111_new_from_rot_trans
#print axioms StaticMath.C111_screw_lerp
#print axioms StaticMath.C111_norm_inf
#print axioms StaticMath.C111_adjoint
#print axioms StaticMath.C112_sin_partial
#print axioms StaticMath.C112_sin_false
#print axioms StaticMath.C113_M22
#print axioms StaticMath.C113_M33
#print axioms StaticMath.C113_M44
#print axioms StaticMath.C113_M55
#print axioms StaticMath.C113_M66
#print axioms StaticMath.C113_finite_M22
#print axioms StaticMath.C113_finite_M33
#print axioms StaticMath.C113_finite_M44
#print axioms StaticMath.C113_finite_M55
#print axioms StaticMath.C113_finite_M66
#print axioms StaticMath.C114_inverse_laws_M22
#print axioms StaticMath.C114_inverse_laws_M33
#print axioms StaticMath.C114_inverse_laws_M44
#print axioms StaticMath.C114_inverse_laws_M55
#print axioms StaticMath.C114_inverse_laws_M66
#print axioms StaticMath.C115_similar_M22
#print axioms StaticMath.C115_similar_M33
#print axioms StaticMath.C115_similar_M44
#print axioms StaticMath.C115_similar_M55
#print axioms StaticMath.C115_similar_M66
#print axioms StaticMath.C115_eigenvals
#print axioms StaticMath.C116_qr_unique_M22
#print axioms StaticMath.C116_qr_unique_M33
#print axioms StaticMath.C116_qr_unique_M44
#print axioms StaticMath.C116_qr_unique_M55
#print axioms StaticMath.C116_qr_unique_M66
#print axioms StaticMath.C117_rotations
#print axioms StaticMath.C117_from_rotation
#print axioms StaticMath.C117_rigid
#print axioms StaticMath.C118_euler_angles
#print axioms StaticMath.C118_euler_ranges
#print axioms StaticMath.C118_logarithms
#print axioms StaticMath.C118_axis_angle
#print axioms StaticMath.C119_screw_lerp
#print axioms StaticMath.C119_slerp
#print axioms StaticMath.C120_get_translation
#print axioms StaticMath.C120_dual_product
#print axioms StaticMath.C120_homogeneous_inverse
#print axioms StaticMath.C120_inverse_round_trip
#print axioms StaticMath.C120_cross
#print axioms StaticMath.C120_screw_to_axis
#print axioms StaticMath.C120_adjoint
#print axioms StaticMath.C120_no_overflow
#print axioms StaticMath.C121_quat_components
#print axioms StaticMath.C121_dual_components
#print axioms StaticMath.C121_quat_flags
#print axioms StaticMath.C121_slerp_flag
#print axioms StaticMath.C121_dual_flags
#print axioms StaticMath.C121_array
#print axioms StaticMath.C121_point
#print axioms StaticMath.C121_get_axis
#print axioms StaticMath.C121_angle_scale
#print axioms StaticMath.C121_is_normalized
#print axioms StaticMath.C121_is_normalized_not_motion
#print axioms StaticMath.C122_similar
#print axioms StaticMath.C122_backward
#print axioms StaticMath.C122_converges
#print axioms StaticMath.C122_terminates
#print axioms StaticMath.C122_reported_false
#print axioms StaticMath.C122_reported_partial
#print axioms StaticMath.C123_rotate_four
#print axioms StaticMath.C123_euler_again
#print axioms StaticMath.C123_screw_parameters
#print axioms StaticMath.C123_transform_point
#print axioms StaticMath.C123_dual_quaternions
#print axioms StaticMath.C123_inverse
#print axioms StaticMath.C123_solve
#print axioms StaticMath.C123_for_each
#print axioms StaticMath.C123_nice_square
#print axioms StaticMath.C123_nice_square_i32
#print axioms StaticMath.C123_qr_M22
#print axioms StaticMath.C123_qr_M33
#print axioms StaticMath.C123_qr_M44
#print axioms StaticMath.C123_qr_M55
#print axioms StaticMath.C123_qr_M66
#print axioms StaticMath.C124_orthogonal_M22_f32_false
#print axioms StaticMath.C124_nan_M22_f32_false
#print axioms StaticMath.C124_orthogonal_M22_f64_false
#print axioms StaticMath.C124_nan_M22_f64_false
#print axioms StaticMath.C124_orthogonal_M33_f32_false
#print axioms StaticMath.C124_nan_M33_f32_false
#print axioms StaticMath.C124_orthogonal_M33_f64_false
#print axioms StaticMath.C124_nan_M33_f64_false
#print axioms StaticMath.C124_orthogonal_M44_f32_false
#print axioms StaticMath.C124_nan_M44_f32_false
#print axioms StaticMath.C124_orthogonal_M44_f64_false
#print axioms StaticMath.C124_nan_M44_f64_false
#print axioms StaticMath.C124_orthogonal_M55_f32_false
#print axioms StaticMath.C124_nan_M55_f32_false
#print axioms StaticMath.C124_orthogonal_M55_f64_false
#print axioms StaticMath.C124_nan_M55_f64_false
#print axioms StaticMath.C124_orthogonal_M66_f32_false
#print axioms StaticMath.C124_nan_M66_f32_false
#print axioms StaticMath.C124_orthogonal_M66_f64_false
#print axioms StaticMath.C124_nan_M66_f64_false
#print axioms StaticMath.C124_columns_M22_partial
#print axioms StaticMath.C124_certificate_M22_partial
#print axioms StaticMath.C124_columns_M33_partial
#print axioms StaticMath.C124_certificate_M33_partial
#print axioms StaticMath.C124_columns_M44_partial
#print axioms StaticMath.C124_certificate_M44_partial
#print axioms StaticMath.C124_columns_M55_partial
#print axioms StaticMath.C124_certificate_M55_partial
#print axioms StaticMath.C124_columns_M66_partial
#print axioms StaticMath.C124_certificate_M66_partial
#print axioms StaticMath.C125_compare_floats
#print axioms StaticMath.C125_nearly_equal_sound
#print axioms StaticMath.C125_nearly_equal_complete
#print axioms StaticMath.C125_is_rotation_det
#print axioms StaticMath.C125_rounded_rotation_partial
#print axioms StaticMath.C125_rounded_rotation_f32_false
#print axioms StaticMath.C125_rounded_rotation_f64_false
#print axioms StaticMath.C126_from_rotation
#print axioms StaticMath.C126_to_rotation
#print axioms StaticMath.C126_matrix_round_trip
#print axioms StaticMath.C126_quaternion_round_trip
#print axioms StaticMath.C126_norm
#print axioms StaticMath.C127_rotation
#print axioms StaticMath.C127_rotation_matrix
#print axioms StaticMath.C127_norm_encoded
#print axioms StaticMath.C127_get_angle
#print axioms StaticMath.C128_quaternions
#print axioms StaticMath.C128_M22
#print axioms StaticMath.C128_M33
#print axioms StaticMath.C128_M44
#print axioms StaticMath.C128_M55
#print axioms StaticMath.C128_M66
#print axioms StaticMath.C129_eigenvalues_partial
#print axioms StaticMath.C129_diagonal_false
#print axioms StaticMath.C129_small_eigenvalue_false
#print axioms StaticMath.C130_grid
#print axioms StaticMath.C130_sum
#print axioms StaticMath.C130_det_M22
#print axioms StaticMath.C130_mul_M22
#print axioms StaticMath.C130_mulVec_M22
#print axioms StaticMath.C130_dot_V2
#print axioms StaticMath.C130_norm2_V2
#print axioms StaticMath.C130_normalize_V2
#print axioms StaticMath.C130_det_M33
#print axioms StaticMath.C130_mul_M33
#print axioms StaticMath.C130_mulVec_M33
#print axioms StaticMath.C130_dot_V3
#print axioms StaticMath.C130_norm2_V3
#print axioms StaticMath.C130_normalize_V3
#print axioms StaticMath.C130_det_M44
#print axioms StaticMath.C130_mul_M44
#print axioms StaticMath.C130_mulVec_M44
#print axioms StaticMath.C130_dot_V4
#print axioms StaticMath.C130_norm2_V4
#print axioms StaticMath.C130_normalize_V4
#print axioms StaticMath.C130_det_M55
#print axioms StaticMath.C130_mul_M55
#print axioms StaticMath.C130_mulVec_M55
#print axioms StaticMath.C130_dot_V5
#print axioms StaticMath.C130_norm2_V5
#print axioms StaticMath.C130_normalize_V5
#print axioms StaticMath.C130_det_M66
#print axioms StaticMath.C130_mul_M66
#print axioms StaticMath.C130_mulVec_M66
#print axioms StaticMath.C130_dot_V6
#print axioms StaticMath.C130_norm2_V6
#print axioms StaticMath.C130_normalize_V6
#print axioms StaticMath.C130_cross
#print axioms StaticMath.C130_inverse_M22
#print axioms StaticMath.C130_inverse_M33
#print axioms StaticMath.C131_matrix_exponential
#print axioms StaticMath.C131_orthogonal
#print axioms StaticMath.C132_small_rotation_false
#print axioms StaticMath.C132_matrix_log_partial
#print axioms StaticMath.C132_round_trip_partial
#print axioms StaticMath.C133_matrix_exponential6_partial
#print axioms StaticMath.C133_small_rotation_false
#print axioms StaticMath.C134_rotation_to_euler_partial
#print axioms StaticMath.C134_round_trip_partial
#print axioms StaticMath.C134_near_gimbal_lock_false
#print axioms StaticMath.C135_slerp_partial
#print axioms StaticMath.C135_slerp_same_false
#print axioms StaticMath.C136_chain
#print axioms StaticMath.C136_to_homogeneous
#print axioms StaticMath.C136_chain_matrix
#print axioms StaticMath.C136_rot_trans
#print axioms StaticMath.C136_from_homogeneous
#print axioms StaticMath.C136_round_trip
#print axioms StaticMath.C136_matrix_chain
#print axioms StaticMath.C137_chain
#print axioms StaticMath.C137_point
#print axioms StaticMath.C137_inverse
#print axioms StaticMath.C137_inverse_transform
#print axioms StaticMath.C138_exp
#print axioms StaticMath.C138_exp_unit
#print axioms StaticMath.C139_ln
#print axioms StaticMath.C139_ln_unit
#print axioms StaticMath.C139_exp_ln
#print axioms StaticMath.C139_sqrt
#print axioms StaticMath.C139_unit
#print axioms StaticMath.C139_normalize_a
#print axioms StaticMath.C139_normalize_q
#print axioms StaticMath.C140_get_parts_partial
#print axioms StaticMath.C140_to_euler_angles_partial
#print axioms StaticMath.C140_near_gimbal_lock_false
#print axioms StaticMath.C141_pow_partial
#print axioms StaticMath.C141_screw_lerp_partial
#print axioms StaticMath.C141_same_motion_false
#print axioms StaticMath.C142_wrap
#print axioms StaticMath.C142_sizes
#print axioms StaticMath.C142_add_M22
#print axioms StaticMath.C142_add_V2
#print axioms StaticMath.C142_sub_M22
#print axioms StaticMath.C142_sub_V2
#print axioms StaticMath.C142_neg_M22
#print axioms StaticMath.C142_smul_M22
#print axioms StaticMath.C142_dot_V2
#print axioms StaticMath.C142_mulVec_M22
#print axioms StaticMath.C142_mul_M22
#print axioms StaticMath.C142_mulMat_V2
#print axioms StaticMath.C142_add_M33
#print axioms StaticMath.C142_add_V3
#print axioms StaticMath.C142_sub_M33
#print axioms StaticMath.C142_sub_V3
#print axioms StaticMath.C142_neg_M33
#print axioms StaticMath.C142_smul_M33
#print axioms StaticMath.C142_dot_V3
#print axioms StaticMath.C142_mulVec_M33
#print axioms StaticMath.C142_mul_M33
#print axioms StaticMath.C142_add_M44
#print axioms StaticMath.C142_add_V4
#print axioms StaticMath.C142_sub_M44
#print axioms StaticMath.C142_sub_V4
#print axioms StaticMath.C142_neg_M44
#print axioms StaticMath.C142_smul_M44
#print axioms StaticMath.C142_dot_V4
#print axioms StaticMath.C142_mulVec_M44
#print axioms StaticMath.C142_mul_M44
#print axioms StaticMath.C142_mulMat_V4
#print axioms StaticMath.C142_add_M55
#print axioms StaticMath.C142_add_V5
#print axioms StaticMath.C142_sub_M55
#print axioms StaticMath.C142_sub_V5
#print axioms StaticMath.C142_neg_M55
#print axioms StaticMath.C142_smul_M55
#print axioms StaticMath.C142_dot_V5
#print axioms StaticMath.C142_mulVec_M55
#print axioms StaticMath.C142_mul_M55
#print axioms StaticMath.C142_mulMat_V5
#print axioms StaticMath.C142_add_M66
#print axioms StaticMath.C142_add_V6
#print axioms StaticMath.C142_sub_M66
#print axioms StaticMath.C142_sub_V6
#print axioms StaticMath.C142_neg_M66
#print axioms StaticMath.C142_smul_M66
#print axioms StaticMath.C142_dot_V6
#print axioms StaticMath.C142_mulVec_M66
#print axioms StaticMath.C142_mul_M66
#print axioms StaticMath.C142_cross
#print axioms StaticMath.C142_quaternions
#print axioms StaticMath.C142_dual_quaternions
#print axioms StaticMath.C143_parameters_partial
#print axioms StaticMath.C143_round_trip_partial
#print axioms StaticMath.C143_log_partial
#print axioms StaticMath.C143_translation_false
#print axioms StaticMath.C144_exp
#print axioms StaticMath.C144_log
#print axioms StaticMath.C144_slerp
#print axioms StaticMath.C144_screw
#print axioms StaticMath.C144_screw_axis
#print axioms StaticMath.C144_pow
#print axioms StaticMath.C144_screw_lerp
#print axioms StaticMath.C145_cross
#print axioms StaticMath.C145_norm_l
#print axioms StaticMath.C145_quaternions
#print axioms StaticMath.C145_quaternions_fit
#print axioms StaticMath.C145_rotation
#print axioms StaticMath.C145_rotate
#print axioms StaticMath.C145_dual_quaternions
#print axioms StaticMath.C145_dual_quaternions_fit
#print axioms StaticMath.C145_translation
#print axioms StaticMath.C145_transform_point
#print axioms StaticMath.C145_scale_V2
#print axioms StaticMath.C145_scale_M22
#print axioms StaticMath.C145_scale_V3
#print axioms StaticMath.C145_scale_M33
#print axioms StaticMath.C145_scale_V4
#print axioms StaticMath.C145_scale_M44
#print axioms StaticMath.C145_scale_V5
#print axioms StaticMath.C145_scale_M55
#print axioms StaticMath.C145_scale_V6
#print axioms StaticMath.C145_scale_M66
#print axioms StaticMath.C145_scale_back
#print axioms StaticMath.C146_M22
#print axioms StaticMath.C146_M33
#print axioms StaticMath.C146_M44
#print axioms StaticMath.C146_M55
#print axioms StaticMath.C146_M66
#print axioms StaticMath.C146_solve_linear_system
#print axioms StaticMath.C147_find_max_min
#print axioms StaticMath.C147_norm_l
#print axioms StaticMath.C147_slice_dot
#print axioms StaticMath.C147_slice_norm2
#print axioms StaticMath.C147_slice_normalize
#print axioms StaticMath.C147_project
#print axioms StaticMath.C148_V3_mulMat
#print axioms StaticMath.C148_inverse_none
#print axioms StaticMath.C148_norm_inf
#print axioms StaticMath.C148_lu_det
#print axioms StaticMath.C148_is_rotation
#print axioms StaticMath.C148_slerp_end
#print axioms StaticMath.C148_transform_point
#print axioms StaticMath.C148_div
#print axioms StaticMath.C148_pow_translation
#print axioms StaticMath.C148_matrix_exponential6
#print axioms StaticMath.C148_matrix_log
#print axioms StaticMath.C149_det_M22
#print axioms StaticMath.C149_products_M22
#print axioms StaticMath.C149_inverse_M22
#print axioms StaticMath.C149_det_M33
#print axioms StaticMath.C149_products_M33
#print axioms StaticMath.C149_inverse_M33
#print axioms StaticMath.C149_det_M44
#print axioms StaticMath.C149_products_M44
#print axioms StaticMath.C149_inverse_M44
#print axioms StaticMath.C149_det_M55
#print axioms StaticMath.C149_products_M55
#print axioms StaticMath.C149_inverse_M55
#print axioms StaticMath.C149_det_M66
#print axioms StaticMath.C149_products_M66
#print axioms StaticMath.C149_inverse_M66
#print axioms StaticMath.C149_solve
#print axioms StaticMath.C149_quat_mul
#print axioms StaticMath.C149_quat
#print axioms StaticMath.C149_quat_mulVec
#print axioms StaticMath.C149_dual_mul
#print axioms StaticMath.C149_lost
#print axioms StaticMath.C150_normalize
#print axioms StaticMath.C150_normalize_other
#print axioms StaticMath.C150_is_normalized_sound
#print axioms StaticMath.C150_is_normalized_complete
#print axioms StaticMath.C150_compare
#print axioms StaticMath.C150_product_partial
#print axioms StaticMath.C150_product_false
#print axioms StaticMath.C151_pow
#print axioms StaticMath.C151_integer_powers
#print axioms StaticMath.C151_derivative
#print axioms StaticMath.C151_derivative_finite
#print axioms StaticMath.C152_M22
#print axioms StaticMath.C152_M33
#print axioms StaticMath.C152_M44
#print axioms StaticMath.C152_M55
#print axioms StaticMath.C152_M66
#print axioms StaticMath.C153_accepts
#print axioms StaticMath.C153_sound
#print axioms StaticMath.C154_mulMat_V2
#print axioms StaticMath.C154_trace_M22
#print axioms StaticMath.C154_norm2_V2
#print axioms StaticMath.C154_norm2_no_overflow_V2
#print axioms StaticMath.C154_mulMat_V3
#print axioms StaticMath.C154_trace_M33
#print axioms StaticMath.C154_norm2_V3
#print axioms StaticMath.C154_norm2_no_overflow_V3
#print axioms StaticMath.C154_mulMat_V4
#print axioms StaticMath.C154_trace_M44
#print axioms StaticMath.C154_norm2_V4
#print axioms StaticMath.C154_norm2_no_overflow_V4
#print axioms StaticMath.C154_mulMat_V5
#print axioms StaticMath.C154_trace_M55
#print axioms StaticMath.C154_norm2_V5
#print axioms StaticMath.C154_norm2_no_overflow_V5
#print axioms StaticMath.C154_mulMat_V6
#print axioms StaticMath.C154_trace_M66
#print axioms StaticMath.C154_norm2_V6
#print axioms StaticMath.C154_norm2_no_overflow_V6
#print axioms StaticMath.C154_norm2_M22
#print axioms StaticMath.C154_norm2_no_overflow_M22
#print axioms StaticMath.C154_norm2_M33
#print axioms StaticMath.C154_norm2_no_overflow_M33
#print axioms StaticMath.C154_norm2_M44
#print axioms StaticMath.C154_norm2_no_overflow_M44
#print axioms StaticMath.C155_distance
#print axioms StaticMath.C155_near
#print axioms StaticMath.C156_matrix_log6
#print axioms StaticMath.C156_round_trip
#print axioms StaticMath.C156_structure
#print axioms StaticMath.C156_translation
#print axioms StaticMath.C157_euler_YZX
#print axioms StaticMath.C157_rotation_to_euler
#print axioms StaticMath.C157_matrix_log6
#print axioms StaticMath.C157_screw_lerp
#print axioms StaticMath.C157_is_normalized
#print axioms StaticMath.C157_inverse_flagged
#print axioms StaticMath.C157_compare_vecs
#print axioms StaticMath.C158_add_sub
#print axioms StaticMath.C158_scale
#print axioms StaticMath.C158_argq
#print axioms StaticMath.C158_cos
#print axioms StaticMath.C158_sin
#print axioms StaticMath.C159_rotation
#print axioms StaticMath.C159_translation
#print axioms StaticMath.C159_dual
#print axioms StaticMath.C160_rotate
#print axioms StaticMath.C160_rotate_four
#print axioms StaticMath.C160_full_turn
#print axioms StaticMath.C160_example
#print axioms StaticMath.C161_transform_point
#print axioms StaticMath.C161_norm
#print axioms StaticMath.C161_screw_parameters
#print axioms StaticMath.C161_screw_z
#print axioms StaticMath.C161_points
#print axioms StaticMath.C161_dual_quaternions
#print axioms StaticMath.C162_axis_angle
#print axioms StaticMath.C162_axis_of_rotation
#print axioms StaticMath.C162_round_trip
#print axioms StaticMath.C162_abs_imag
#print axioms StaticMath.C163_exp_flag
#print axioms StaticMath.C163_flag_within
#print axioms StaticMath.C163_inverse
#print axioms StaticMath.C164_programs
#print axioms StaticMath.C164_same
#print axioms StaticMath.C165_programs
#print axioms StaticMath.C165_rotate
#print axioms StaticMath.C166_programs
#print axioms StaticMath.C166_matrix
#print axioms StaticMath.C167_rotation_to_euler
#print axioms StaticMath.C167_to_euler_angles
#print axioms StaticMath.C167_euler_again
#print axioms StaticMath.C168_programs
#print axioms StaticMath.C168_agree
#print axioms StaticMath.C169_programs
#print axioms StaticMath.C169_agree

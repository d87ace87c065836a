{
 "C04": "False for V3: vector3.rs multiplies a row vector by a 3x3 matrix as M*v; negation with witness, and what V3 does compute is proved.",
 "C10": "False: matrices with non-zero determinant below EPSILON are reported as singular; proved: |det| >= EPSILON gives Some.",
 "C18": "False: norm_inf returns the largest element, not the largest absolute value; proved: it is the maximum, and the infinity norm on non-negative vectors.",
 "C28": "Exact arithmetic, every invertible matrix; P is the replay of indx as row swaps. The loop proof (Lemmas/Lu.lean) is for every n.",
 "C29": "False: `big` is not reset per row, so the check only looks at the first row; a non-zero matrix with a zero first row panics. Partial: lu panics iff the first row is zero.",
 "C30": "False: a zero pivot is replaced by 1e-40, so the reported determinant is never 0. Partial: lu factors P*A plus 1e-40 on some diagonal entries (exactly when A is singular) and reports the determinant of that matrix.",
 "C31": "All real matrices on which lu returns.",
 "C32": "Exact arithmetic, all real matrices; the Gram-Schmidt loop proof (Lemmas/Qr.lean) is for every n.",
 "C34": "IEEE model, every binary format (Ieee/Float.lean).",
 "C36": "False: the absolute-comparison branch near zero is dead (compares with min_value); proved for the branches that are reachable.",
 "C37": "Exact reals and IEEE model.",
 "C38": "False: compare_vecs ignores trailing elements of the longer slice; proved for equal lengths.",
 "C39": "False: is_rotation accepts any matrix of determinant 1; proved: rotations are accepted, and acceptance forces det within EPSILON.",
 "C43": "False: == also compares the normalized flag, so one()*one() != one(); proved: == is equality of components and flag.",
 "C44": "False for exp (flag set for small arguments); proved truthful for every other flag-setting function, and by induction for every quaternion a program builds from the public functions (exp, sqrt, pow only of zero or of arguments with norm at least EPSILON).",
 "C54": "False inside a band around gimbal lock (code switches to the gimbal formulas although the angles are still determined); proved exact at gimbal lock and at distance 4 EPSILON or more, within 12 EPSILON in each entry for all rotations.",
 "C58": "False in the nearly-parallel branch (components 1 and 2 of b swapped; zero quaternion for negative dot); proved whenever the sine of the angle is at least 0.001 or the arguments are parallel.",
 "C61": "False for transform_point: the code multiplies by conj() where conj_combined() is needed, so every point is only rotated and never translated (new_from_translation(t).transform_point(p) = p); proved: the real part, get_translation, to_rotation_translation, to_quaternion_translation and to_homogeneous are right.",
 "C62": "False: transform_point is not to_homogeneous applied to (p,1) (it omits the translation); proved: to_homogeneous of a product is the product, products of unit dual quaternions are unit, transform_point composes.",
 "C64": "False for new_from_rotation / new_from_rotation_matrix of arguments that are not rotations (flag set without looking); proved: two-sided inverse whenever the flags are truthful, exact panic condition, and the flags are truthful for every other constructor and operation.",
 "C65": "False: the dual part is only scaled, not orthogonalised; proved: exact None condition, real part of norm 1, result proportional to the argument, unit exactly when the parts are orthogonal.",
 "C66": "False in general (the formula assumes commuting real parts); proved: a/a = 1, exact panic condition, the real part is always right, and all of it when the divisor's real part commutes with the dividend.",
 "C67": "False for pure translations: below the threshold the code uses new_from_point, doubling the translation; proved for angles in [EPSILON, 2 pi): same line, e times angle and displacement, exponent laws; and that new_from_screw_parameters is the screw motion.",
 "C69": "False at the start point when the code's sign test (real part of the quaternion product) is negative (translation negated), and at the end point for motions that differ by a translation; proved in all other cases, and what is returned in the first.",
 "C70": "False for real parts of norm below EPSILON (answer true, e.g. zero()); proved: otherwise true forces the norm within 3 EPSILON of 1, norm exactly 1 is accepted.",
 "C71": "False: log of the identity or of a pure translation panics; proved: None exactly for unflagged, panic exactly when the rotation axis is undefined, the components otherwise.",
 "C73": "False for EulerSeq::YZX, which multiplies rotx*roty*rotz; proved for the other sequences, the default, and that every result is a rotation.",
 "C80": "False for half turns about (nearly) the x axis (third half-turn branch uses 1 + r10) and for angles below EPSILON (matrix_exponential returns the identity); proved: antisymmetric always, exp(log R) = R for all other R, matrix_exponential(matrix_log R) = R when additionally the angle is 0 or at least EPSILON.",
 "C81": "False for twists without rotation: the code's translation branch has a stray 1 at (0,2); proved for rotation part at least EPSILON, never panics, and what the branch returns.",
 "C82": "False for pure translations (stray 1 in matrix_exponential6) and the half turns of C80; proved: result in se(3), exp(log6 H) = H outside those half turns (pure translations included), round trip for angles at least EPSILON.",
 "C87": "Inherits the band of C54; proved: unit quaternion, exact translation, rotation exact outside the band and within 12 EPSILON in each entry always.",
 "C89": "IEEE model, every binary format; == is the derived PartialEq.",
 "C90": "IEEE model; NaN carries no payload. For 4x4 the product statement is shown to be false in every format (C90_transpose_mul_M44_differs), which is why the claim leaves 4x4 out.",
 "C91": "IEEE model. Disagreement with the intent of inverse(): a NaN determinant is not reported as singular.",
 "C92": "IEEE model; witnesses of underflow and overflow in every format.",
 "C93": "IEEE model; also a bound without the normal-range hypothesis (absolute term n*eta).",
 "C94": "Panic on overflow modelled as a poison value; also a sufficient condition for not panicking.",
 "C97": "Exact reals and IEEE. False for dual quaternions: is_zero is ==, which compares the normalized flags, so an all-zero dual quaternion flagged normalized is not zero; proved for unflagged ones.",
 "C98": "Exact reals and IEEE (NaN operands included).",
 "C100": "Any element type.",
 "C101": "False: formatting a matrix of any size prints a newline on stdout; proved: the destination text of every type, and no stdout output for vectors and quaternions. The text of one number is a parameter.",
 "C102": "IEEE model, round to nearest even, every binary format; the exact value is Mathlib's Matrix.det of the real values of the entries.",
 "C103": "IEEE model.",
 "C104": "IEEE model; f.p is 24 for f32 and 53 for f64.",
 "C105": "IEEE model; Hamilton product and norm are Mathlib's.",
 "C106": "IEEE model with correctly rounded sqrt and division; no assumption on other libm functions.",
 "C107": "IEEE model; equality is Rust's == with NaN matching NaN.",
 "C108": "IEEE model; no assumption on libm.",
 "C109": "IEEE model; SinCosAcc f e is an explicit hypothesis on the library, shown satisfiable by the correctly rounded one.",
 "C110": "IEEE model; holds whatever pivot order the code picks; sizes 2 to 6.",
 "C111": "IEEE model; no finiteness hypothesis.",
 "C112": "False of the code: argq divides by an infinite norm and returns zero, and sin then unwraps the inverse of zero. The partial theorem says this is the only panic.",
 "C122": "The last clause is false: check_elements asks for one small entry below the diagonal, so the loop can stop with values that are no eigenvalues (cyclic permutation matrix: prints 0, 0, 0 after one step); proved when every entry below the diagonal is zero, and as a backward error always. All other clauses are proved.",
 "C124": "The first sentence is false in f32 and f64 and for every size: kernel-evaluated matrices of determinant 1 whose Q has columns with inner product above 0.9 in magnitude (and Q*R far from the matrix), and others whose Q has NaN entries; proved: the bounds on the columns and the certificate that orthogonality of Q implies a small residual.",
 "C125": "The last clause is false: in f32 the correctly rounded rotation 1/3 [[1,-2,2],[2,-1,-2],[2,2,1]] is rejected, in f64 1/7 [[3,-2,6],[6,3,-2],[-2,6,3]]; proved for rotations with entries 0, 1 and -1. All other clauses are proved.",
 "C126": "Any IEEE format of precision at least 8 (11 for the quaternion round trip). R, delta, eps are universally quantified.",
 "C127": "The accuracy of sin, cos and atan2 is a hypothesis; a correctly rounded library is shown to meet it.",
 "C128": "The chain is a left fold over a list of arbitrary length. No finiteness of intermediate results is assumed.",
 "C129": "False of the code: see the two witnesses. The partial theorem bounds the error in terms of the exact discriminant.",
 "C130": "Inverses of sizes 4 to 6 are not treated. The hypotheses on finiteness are about results of the code, as overflow is what they exclude.",
 "C131": "sin and cos are not fixed by IEEE 754; their accuracy is a hypothesis.",
 "C132": "False of the code: in f64 with correctly rounded sin and cos the rotation by 2^-27 about the third axis has a logarithm of exactly zero. Proved: an error bound of order (delta + eps + u) / sin^2 N for a matrix within delta of the exponential, when sin N >= 1/64. The accuracy of sin, cos and acos is a hypothesis.",
 "C133": "False of the code: in f64 with correctly rounded sin and cos the twist with rotation vector (0, 0, 2^-27) and translation (1, 0, 0) gives a second translation component of zero instead of about 2^-28. Proved: rotation block as in C131, translation within (7 eps + (190 N + 210) u) / N, last row exact. sin and cos accuracy is a hypothesis.",
 "C134": "False of the code: for every format of 11 bits or more there is a float matrix within 32 u of a rotation whose computed angles describe a rotation that is off by more than 1 in an entry, because next to gimbal lock yaw and roll are taken from entries that are only rounding noise. Proved: when the cosine s of the pitch is at least 64 (delta + eps + u) the rotation described by the angles is within 18 delta / s + 5 eps + 36 u, and the rebuilt float matrix within 19 delta / s + 12 eps + 49 u. Accuracy of atan2, sin, cos and FRAC_PI_2 is a hypothesis.",
 "C135": "False of the code: in f64, whatever the library, normalising 1 + 2i + 4j + 10k gives a quaternion a whose computed dot product with itself is below 1, so slerp(a, a, 1) takes the branch that exchanges the last two entries and is off by more than 1/2, and slerp(a, -a, t) is the zero quaternion for every t. Proved: away from parallel and from orthogonal quaternions every entry is within 180 (delta + eps + u) / sin^2 of the exact interpolation. Accuracy of sin, cos and acos is a hypothesis.",
 "C136": "Chain: real part within g^n - 1 and dual part within n P (g^n - 1) with g = (1 + delta)(1 + 11 u), P half the largest translation; matrices in, matrix out: 5 (g^n - 1) + 17 u in the rotation entries and n P times that in the translation. transform_point is not part of it: it ignores the translation (C61).",
 "C137": "Rotation block within g^n - 1 (Frobenius), translation within n P (g^n - 1) with g = (1 + delta)(1 + 13 u); a point of size Q is moved right to (P + Q)(eps + 15 u), the inverse has error (1 + eps)^2 (1 + 6 u) - 1, the inverse transform (P + Q)(4 eps + 31 u).",
 "C138": "Error at most e^re (6 eps + (16 |im| + 28) u); both branches of the code (above and below epsilon) are covered.",
 "C139": "exp(ln q) within 4 eps + 95 u of q (exact exp), 12 eps + 205 u (computed exp), sqrt squared within 29 eps + 356 u, relative to the norm. The logarithm itself is not compared with an exact logarithm, because near -1 the two may point in different directions.",
 "C140": "False of the code close to gimbal lock: for every format of 11 bits or more and every library accurate to 4u there is a pose within 32u of a rigid one whose get_parts quaternion stands for another rotation (an entry off by more than 1/2). Proved at a distance s (the cosine of the pitch) of at least 64 (delta + eps + u): the quaternion is within 27 delta / s + 15 eps + 62 u of the exact one up to sign, and the same for the angles of a quaternion. Accuracy of sin, cos, atan2 and FRAC_PI_2 is a hypothesis.",
 "C141": "False of the code for equal motions: in double precision, interpolating from the rotation given by normalising 2 + i + j to itself gives eight NaN entries for every parameter (the computed real part of the relative motion is 1 + 2^-52, and acos of it is NaN). Proved when sin^2(theta/2) is at least 4096 times the input and library errors, with a bound growing like 1 / sin^2(theta/2), and for screw_lerp when the real part of the product of the two rotations is not close to zero or negative (see C69). Accuracy of sin, cos and acos is a hypothesis.",
 "C142": "For the row-vector times matrix products of V3 and V6 see C04 (the code is wrong there); the other sizes are included.",
 "C143": "False of the code for pure translations, in every format: the computed moment is infinite, and new_from_screw_parameters of the computed parameters has NaN in all three entries of the dual vector part (infinity times sin 0). Proved when sin(theta/2) is at least 4096 times the input and library errors (8192 for log), with bounds 30 d/s for the axis, 248 P d/s for the displacement, 283 P d/s^2 for the moment, 41 d for the angle, 1000 d/s for the round trip (d the sum of the errors, s = sin(theta/2), P the size of the dual part). Accuracy of the library is a hypothesis; the tangent may overflow to an infinity near its pole.",
 "C144": "",
 "C145": "",
 "C146": "",
 "C147": "",
 "C148": "",
 "C149": "",
 "C150": "False of the code for products: in double precision the product of the rotations given by normalising -1+i+3j-8k and -1-2i+2j+5k has a real part of computed norm 1-2^-51, which is_normalized rejects. Proved: normalize is accurate to 5u, is_normalized implies a real norm within 9u of 1 (or a computed real norm below EPSILON), it accepts every computed real norm within 2u of 1 when the dual part is zero or in the normal range, products drift by at most 2 delta + delta^2 + 11u, and comparison.",
 "C151": "",
 "C152": "",
 "C153": "",
 "C154": "",
 "C155": "",
 "C156": "The range of angles is part of the statement; outside of it see C132 (small angles) and C82 (half turns).",
 "C157": "Equivalences for C38, C54, C64, C69, C70, C73, C82; exact reals.",
 "C158": "IEEE model of arbitrary format; elementary functions assumed within eps (SinCosAcc, ExpAcc), shown satisfiable by the correctly rounded library.",
 "C159": "IEEE model of arbitrary format; square root correctly rounded.",
 "C160": "IEEE model of arbitrary format; sin and cos of stated accuracy, square root correctly rounded.",
 "C161": "IEEE model of arbitrary format; sin, cos, tan and atan2 of stated accuracy. transform_point rotates only (C61); that is what is compared.",
 "C162": "IEEE model of arbitrary format; sin, cos and atan2 of stated accuracy. Angles closer to 0 or 2 pi, where get_axis may return None, are outside the hypotheses.",
 "C163": "Exact real arithmetic. Complements C44, which is false as stated: the flag of exp is not exact, but no program gets further away than 11/10 EPSILON. Programs are those of the quaternion functions; normalize_a is private and enters through ln only.",
 "C164": "Exact real arithmetic. The screw constructor asks for an angle of at least EPSILON because matrix_exponential6 takes smaller angles for zero (C144).",
 "C165": "IEEE model. Leaves are arbitrary floats near unit quaternions (the constructors give such by C109, C126, C127). Extends C128, which is about products from left to right.",
 "C166": "IEEE model. Leaves are arbitrary floats near rigid motions (the constructors give such by C136). Extends C136, which is about products from left to right; the inverse of a dual quaternion that is not flagged and normalize are new.",
 "C167": "IEEE model. C134 and C140 bound the error of the rotation the angles describe, this is about the angles themselves. Near gimbal lock nothing of the kind holds (C134_near_gimbal_lock_false). Whole turns stay open because the library is only assumed to return atan2 up to whole turns.",
 "C168": "IEEE model. Extends C137 (products from left to right) and is the floating point version of C164; agreement uses C166.",
 "C169": "IEEE model. Extends C128 (products from left to right); agreement uses C165 and C126."
}

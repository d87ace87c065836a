# Formal model of `static-math`: design

Sources: `/repo` (Rust crate `static-math`, read as text only; nothing is built or run).
Model and proofs: `/verif/lean` (Lean 4.33.0 + Mathlib). Property list: `properties.jsonl`.
Claim status: `MANIFEST.json`. Mutation log: `seeded/LOG.jsonl`.

## 1. How the code is modelled

### 1.1 Element type
The Rust types are generic (`T: Num + Copy`, `T: Signed`, `T: Float`). The model is
generic in the same way: every model function takes *unbundled, law-free* operation
classes (`[Add T] [Sub T] [Mul T] [Div T] [Neg T] [Zero T] [One T]`), and for the `Float`
part three more law-free classes:

* `RAbs T` – `abs`;
* `ROrd T` – Boolean `<`, `<=`, `==` (so `NaN`-like behaviour is representable);
* `RFloat T` – `sqrt recip sin cos tan atan2 acos exp ln min`, `EPSILON`, `min_value`,
  `max_value`, `infinity`, `PI`, `FRAC_PI_2` and the literals converted with `T::from`.

The *same* definitions are then instantiated at:

| level | instance | what it covers |
|---|---|---|
| any `T` | nothing assumed | structural functions (transpose, indexing, views, for_each …): all floats and ints |
| ring | any `CommRing`/`Field` | exact integers, wrapping machine integers (`ZMod 2^k`), rationals, reals |
| real | `ℝ`, with the crate's thresholds as parameters (`RealParams`) | "exact arithmetic": the real-number meaning of the float code, with every `EPSILON` branch kept |
| IEEE | a model of binary floating point with NaN, ±∞, ±0, rounding | float specific claims (C34, C37, C89–C93, C97, C98, C102–C113, C120, C124, C125, C126, C127, C128, C129, C130, C131, C132, C133, C134, C135, C136, C137, C138, C139, C140, C141, C143, C146, C147, C149, C150, C151, C152, C153, C154, C155, C156, C158, C159, C160, C161, C162, C165, C166, C167, C168, C169) |
| checked | integers where any out-of-range intermediate is a panic | C94, C145 |
| wrapping | integers reduced modulo the number of values of the type (release build) | C142 |

The real level is *not* a statement about rounded results: a theorem at that level says
the algorithm (all branches, all thresholds) is right in exact arithmetic. Rounding is only
covered where a property says so explicitly (IEEE level).

### 1.2 Values, panics, mutation
* `[T; n]` is `Vec n T` (a structure around `Fin n → T`), `MNN<T>` is `Mat n T`
  (`Fin n → Fin n → T`), rows first. Operations are *per size*: `M22.mul`, `M33.mul`, … are
  separate definitions transcribed from the separate Rust bodies (the long ones are
  produced by `tools/rs2lean.py` from the Rust text, see below), because each size is
  hand-written in Rust and can be wrong on its own. Functions whose Rust text is literally the
  same for all sizes (`lu`, `qr`, loops over `rows()`/`cols()`) are modelled once with the size
  as parameter; that they are the same was checked by `diff` of the Rust text.
* A panic is a value: functions that can panic return `Except Panic α`. `Option`/`Result`
  stay data. `&mut self` methods return the new value.
* Loops are folds (`List.foldlM` over the index range) in the same order as in Rust.
* `sin_cos` is the pair of `sin` and `cos`. `Iterator::sum` is a left fold from zero.

* A constant index `m[(i, j)]` is `m i j` with numerals in `Fin n`. Lean would reduce an out-of-range
  numeral modulo `n`, hiding a Rust panic; `tools/check_indices.py` checks that no constant in
  the Rust text is out of range. Variable indices go through `get`/`set`, which return the panic.

### 1.3 Totalisation
Over `ℝ`, Lean's `x/0 = 0`, `sqrt` of negatives `= 0`, `log` of non-positives are total; Rust
gives inf/NaN there. Every real-level theorem is stated so that these values are either
excluded by hypotheses or proved not to be reached (e.g. in QR the column norms are shown
non-zero as part of the proof). The `RealParams` field `infVal` (the value standing for
`T::infinity()`) is an arbitrary real; nothing is proved from its value.

### 1.4 Generated modules
`tools/rs2lean.py` reads the Rust bodies of the straight-line functions of
`matrix{2,3,4,5,6}x*.rs` and `vector{2..6}.rs` and rewrites them token by token to Lean
(`self[(i, j)]` → `self i j`, `let x = e;` → `let x := e`, array literals → `![…]`). The output
(`lean/Verif/Model/Gen*.lean`) is committed; every definition carries the cited file
and line range. The script is a convenience, it is not trusted more than hand transcription.

## 2. Trusted base

* The Lean 4 kernel and the three standard axioms `propext`, `Classical.choice`,
  `Quot.sound`. `Verif/Audit.lean` prints the axioms of every property theorem at build
  time; each of them uses a subset of these three. No own axioms, no `sorry`, no
  `native_decide`, no `bv_decide`.
* The correspondence Rust ↔ model: by reading; each definition cites file and lines.
* The meaning of Mathlib's specification-side objects (`Matrix`, `Matrix.det`,
  `Matrix.permanent`, `Quaternion`, `DualNumber`, `NormedSpace.exp`, `Real.sin`, `Complex.arg` …).
* IEEE level (`Verif/Ieee`): a format is a precision `p` and an exponent range (`f32`, `f64` are
  instances); a value is NaN, ±∞ or a sign and a representable magnitude. `+ - * / sqrt` are
  correctly rounded to nearest, ties to even, with gradual underflow, as Rust guarantees for
  `f32`/`f64` on targets without extended precision. NaN has no sign or payload. `sin cos tan acos
  exp ln atan2`, `PI` and the decimal literals are *arbitrary* functions and constants (`Libm`):
  nothing is assumed of them. `recip` is `1/x`. `Iterator::sum` starts from `0` (from `-0` in
  recent versions of the standard library; the difference is the sign of an all-negative-zero sum).
* Checked integers (`CInt`): an operation whose exact result is out of range is a panic, as in a
  debug build. Release builds wrap, which is the ring level with `ZMod (2^k)`.

### Modelled
`utils.rs`, `slices_methods.rs`, `errors.rs`, `traits.rs` (as function names), `vector2..6.rs`,
`matrix2x2..6x6.rs`, `quaternion.rs`, `dual_quaternion.rs`, `transformations.rs`: every function with
a body, including constructors, `From` impls, the `mNN_new!` macros, the constants (`M33_IDENT`, …),
`PartialEq`, the assignment operators and `Display` (as the text written to the formatter plus the
text written to stdout; how one number is formatted is a parameter).

### Evidence that the model is the code
`Verif/Conformance.lean` (generated by `tools/gen_conformance.py`) is a statement-by-statement
transcription of all 211 unit tests in the crate's `#[cfg(test)]` modules. Each one is evaluated on
the model, with `f32`, `f64`, `i32` as Lean's `Float32`, `Float`, `Int`; a failing test fails the
build. All pass, with the crate's own tolerances. These are tests, not proofs, and no theorem
depends on them; they check the step that no theorem can check, namely that the model was
transcribed from the Rust text correctly. (`Float32.sin` etc. are those of the C library.)

The floats `Flt f` are a definition of ours, so they get the same treatment. `Ieee/Comp.lean` has a
computable copy `BF f` (sign, integer mantissa, exponent) and proves that each of its operations gives the
value of the operation of `Flt f`. `Verif/IeeeConformance.lean` runs `BF` beside the machine's `Float32` and
`Float` on 20000 pseudo-random pairs each, compared bit for bit: `+ - * / sqrt neg abs < <= ==`, with
subnormals, overflow, halfway cases, infinities, NaN and both zeros. No disagreement.

### Not modelled
The benches (the programs under `examples/` are modelled in
`Model/Examples.lean`), `EigenvalueError` (unused data), `Deref` to slices beyond indexing,
`Debug`, `Copy`/`Clone`, the compiler (inlining, contraction to FMA, fast-math, x87), traits of the
`num` crate other than their documented meaning, performance.

## 3. Plan per property

* **C01** Matrix product is the mathematical product: entries of `MNN.mul` compared with `∑ k`, by cases on the indices; any commutative ring.
* **C02** Matrices form a ring under the overloaded operators: `toM : Mat n R → Matrix (Fin n) (Fin n) R` is injective and maps each model operator to Mathlib's; laws are pulled back.
* **C03** Matrix-vector product acts linearly and composes: `MNN.mulVec` = `Matrix.mulVec` entry-wise, then Mathlib laws.
* **C04** Vector-matrix product is the row-vector product: entry-wise sum for 2,4,5,6. **False for V3** (`vector3.rs:202` computes M*v): negation with witness, `_partial` says what V3 does compute and that it is right for symmetric M.
* **C05** Transpose: index law by cases; product law through `toM`.
* **C06** det is the Leibniz determinant: `MNN.det` = `Matrix.det`; 2–4 by expansion, 5 and 6 by splitting the flat sum along row 0 and recursion to the next smaller det.
* **C07** det is multiplicative: from C06.
* **C08** inverse is a two-sided inverse: `inverse` entries = adjugate/det; `Matrix.mul_adjugate`.
* **C09** inverse decides by the epsilon test on det: unfold `inverse`, C37 at the real level.
* **C10** inverse fails only for singular matrices: **False** (|det|<EPSILON, e.g. small multiples of the identity): negation + `_partial` (`|det| ≥ EPSILON → Some`).
* **C11** inverse solves linear systems: from C08 and C03.
* **C12** trace laws: through `toM` and `Matrix.trace`.
* **C13** Matrix norm2 is the Frobenius norm: `norm2² = ∑∑ a²`; inequalities from Mathlib's Frobenius norm / Cauchy–Schwarz.
* **C14** Vector norm2 and dot are the Euclidean ones: `norm2` = `EuclideanSpace` norm.
* **C15** Vector normalize: from C14.
* **C16** Vector space laws: entry-wise.
* **C17** Cross product: ring identities; triple product vs `M33.det` of the column matrix.
* **C18** norm_inf is the infinity norm: **False** (largest element, not largest absolute value): negation + `_partial` (equals the max element; equals the ∞-norm on non-negative vectors).
* **C19** norm_l is the l1 norm: fold = `∑ |v i|`.
* **C20** find_max_min: induction on the slice, any linear order.
* **C21** Row/column views: evaluate the loops; round trips.
* **C22** Diagonal and triangular extraction: evaluate the loops; result list = filtered row-major list.
* **C23** Submatrix: evaluate the loop for each in-range index pair vs `Matrix.submatrix` with `Fin.succAbove`; out of range → panic value.
* **C24** for_each maps every entry: evaluate the loops.
* **C25** Indexing: `get/set` with `Nat` indices returning `Except`.
* **C26** Scalar multiplication and division of matrices: entry-wise.
* **C27** copy_elements_from: evaluate the loops by cases on the quadrant.
* **C28** LU factorisation: generic n, loop invariant `P_k A = L_k U_k + S_k`; determinant by triangularity.
* **C29** LU panics only for the zero matrix: **False** (panics iff the *first row* is zero; `big` is not reset): negation + `_partial` with exact panic condition.
* **C30** LU of a singular matrix reports determinant zero: **False** (zero pivot is replaced by 1e-40): negation + `_partial`: `L*U = P*A + tiny*D`, with D a 0/1 diagonal.
* **C31** LU pivot record: loop invariant.
* **C32** QR factorisation: generic n Gram–Schmidt invariant (orthonormal prefix with the same span).
* **C33** 2x2 real eigenvalues: quadratic formula; eigenvalue = root of the characteristic polynomial/`det(A - xI)=0`.
* **C34** nearly_equal is symmetric and reflexive: IEEE level: commutativity of + and antisymmetry of − up to sign, case analysis.
* **C35** nearly_equal tolerance: real level, unfold.
* **C36** nearly_equal treats tiny values absolutely: **False** (`T::min_value()` is the most negative float so the branch is dead): negation + `_partial`.
* **C37** nearly_zero: real and IEEE level.
* **C38** compare_vecs compares whole vectors: **False** (zip truncates): negation + `_partial` for equal lengths.
* **C39** is_rotation recognises rotations: **False** (shear): negation + `_partial` (every rotation is accepted; true means |det-1| small).
* **C40** Slice dot, norm2, normalize, projection: lists, induction.
* **C41** Quaternion arithmetic is Hamilton's: map to Mathlib `Quaternion`.
* **C42** Quaternion norm is multiplicative: ring identities.
* **C43** Quaternion == is numeric equality: **False** (derived `PartialEq` compares the flag): negation + `_partial` on components.
* **C44** The normalized flag is truthful: **False** for `exp` only (and `sqrt`, `pow` through it): negation + `_partial` for each other constructor and, by induction, for every program built from the public functions.
* **C45** Quaternion inverse and division: real level with flag-truth hypothesis.
* **C46** Quaternion normalize: real level.
* **C47** q*v is the sandwich product and an isometry: ring identities modulo `abs2 q = 1`.
* **C48** to_rotation is a homomorphism into SO(3): ring identities; kernel by algebra.
* **C49** from_rotation inverts to_rotation: branch analysis, R orthogonal with det 1.
* **C50** from_rotation recovers the quaternion up to sign: from C49 and C48.
* **C51** Quaternion::rotation: trigonometric identities.
* **C52** Axis-angle extraction: `atan2` as `Complex.arg`.
* **C53** Euler angles to quaternion: half-angle identities.
* **C54** rotation_to_euler round trip: `atan2` as `Complex.arg`; exact outside the EPSILON band around gimbal lock and at gimbal lock; `_partial` for the band if needed.
* **C55** Quaternion exp is the exponential: Mathlib `Quaternion.exp_eq`; error bound in the small band.
* **C56** exp and ln are inverse: `Complex.arg` polar form.
* **C57** Quaternion sqrt: from C56.
* **C58** slerp: **False** in the near-parallel branch: negations + `_partial` for the generic branch.
* **C59** Quaternion derivative: `HasDerivAt`.
* **C60** Dual quaternion arithmetic: map to `DualNumber (Quaternion R)`.
* **C61** Rotation+translation acts as a rigid motion: ring identities modulo `abs2 q = 1`.
* **C62** Dual quaternion product composes motions: ring identities modulo unit conditions.
* **C63** Homogeneous matrix round trip: from C49.
* **C64** Dual quaternion inverse: **False** for `new_from_rotation(non-unit)` and after `normalize`: negations + `_partial`.
* **C65** Dual quaternion normalize: **False** (dual part not made orthogonal): negation + `_partial`.
* **C66** Dual quaternion division: **False**: negation + `_partial` (a/a, commuting case).
* **C67** Dual quaternion pow: **False** for pure translations (translation doubled): negation + `_partial` for rotations.
* **C68** Screw parameters round trip: trigonometric identities.
* **C69** screw_lerp end points: **False** in the flip branch/translations: negation + `_partial`.
* **C70** is_normalized is truthful: **False** (zero real part): negation + `_partial`.
* **C71** Dual quaternion log is total on unit values: **False** (identity panics): negation + `_partial`.
* **C72** Elementary rotations: trigonometric identities.
* **C73** euler_to_rotation follows the named sequence: **False** for YZX: negation + `_partial` for the other nine and None.
* **C74** Homogeneous transforms: entry-wise.
* **C75** homogeneous_inverse: entry-wise modulo orthogonality.
* **C76** homogeneous_inverse_transform: as C75.
* **C77** so(3) hat and vee: entry-wise.
* **C78** Rodrigues formula: cubic identity of the skew matrix; exponential series.
* **C79** matrix_exponential: from C78.
* **C80** matrix_log: **False** in the third half-turn branch: negation + `_partial`.
* **C81** matrix_exponential6: **False** for pure translations (stray `one`): negation + `_partial`.
* **C82** matrix_log6: partial as C80/C81.
* **C83** Adjoint map: block identities.
* **C84** Twists and se(3): entry-wise.
* **C85** distance_to_manifold: from C13.
* **C86** Screw axis coordinates: algebra.
* **C87** get_parts: from C53, C54.
* **C88** Planar poses: trigonometric identities.
* **C89** IEEE: multiplying by the identity is exact: IEEE level.
* **C90** IEEE: dot and element-wise ops are exactly symmetric: only commutativity of + and * assumed; the M44 product is evaluated in a different order in row 3, hence excluded.
* **C91** IEEE: NaN is not reported as singular: IEEE level.
* **C92** IEEE: normalize on extreme magnitudes: IEEE level, witnesses for under/overflow.
* **C93** IEEE: forward error of dot products and matrix-vector products: standard model of rounding, induction on the sum.
* **C94** Overflow-checked integers: no wrong answer without a panic: poisoned-integer instance and a logical-relation argument.
* **C95** Quaternion sine and cosine: `argq`, `exp` and complex trigonometry on the plane spanned by 1 and the direction; thresholds kept.
* **C96** Quaternion powers: De Moivre on that plane, from C56.
* **C97** == and is_zero are exact and element-wise: element-wise `==` unfolded at the real and IEEE level. **False** for dual quaternions (flags are compared): negation + `_partial`.
* **C98** Approximate comparisons of utils: unfold; lists by induction; IEEE level for NaN.
* **C99** rotation_inverse: orthogonality, and C08.
* **C100** Constructors, sizes and constants: each constructor, macro and constant evaluated; any element type.
* **C101** Display writes the elements in order and nothing else: output as a pair (formatter text, stdout text). **False** for matrices (`println!()` in `fmt`): negation + `_partial`.
* **C102** IEEE: forward error of the determinant: running the generic model on expression trees gives the evaluated formula; one induction over expressions bounds the error by `(1+u)^depth` times the value with all signs made positive, which for `det` is the permanent of the absolute values. Depth of the concrete tree by kernel evaluation.
* **C103** IEEE: no overflow and no NaN within the stated range: same expression trees; magnitude bound instead of error bound.
* **C104** IEEE: exact on integer-valued floats: same expression trees; every intermediate is an integer of at most `p` bits.
* **C105** IEEE: quaternion rounding errors: same expression trees and Cauchy–Schwarz; chains by induction on the list.
* **C106** IEEE: accuracy of norm2 and normalize: relative error of ordered sums (C93), correctly rounded `sqrt` and `/`; triangle inequality.
* **C107** IEEE: sign symmetries are exact: the model functions are run on expression trees; two trees are compared by a verified
  normaliser (commutativity of `+` and `*`, signs pulled outwards), sound for all floats up to the sign of zero (`Ieee/Sim.lean`).
* **C108** IEEE: structural zeros and identities stay exact: same normaliser with the rules `0 * e = 0` and `e - e = 0`, which need
  finite operands, and `0 + e = e`, `1 * e = e`, which do not.
* **C109** IEEE: rotations are as accurate as `sin` and `cos`: the expression trees of the model functions are bounded with inexact
  inputs (`Lemmas/IeeePert.lean`: number of monomials, degree, rounding depth, underflow count computed by the kernel). The accuracy
  of the library is a hypothesis (`SinCosAcc`), not an axiom. For `YZX` the comparison is with the exact evaluation of the code, `Rx Ry Rz` (C73).
* **C110** IEEE: LU is backward stable: loop invariant "computed L times computed U plus remaining block = permuted input plus error" over
  the generic Crout loop (`Lemmas/LuFlt.lean`), with result-relative rounding errors (`Ieee/Back.lean`), then instantiated for sizes 2–6.
* **C111** IEEE: which calls can panic: case analysis of the comparisons with NaN/infinities; loop invariants for index ranges.
* **C112** IEEE: the sine of a finite quaternion exists: case analysis of `argq` (below epsilon, overflow, NaN, ordinary); in the ordinary
  case rounding-error bounds show that the computed divisor stays far from the zero test. Expected false on overflow: negation with witness.
* **C113** IEEE: accuracy of `inverse()`: entries are computed cofactors times the computed reciprocal (5x5: quotient); the cofactor error
  comes from C102 for the minors, then two more roundings; the true determinant from C102 again.
* **C114** Laws of inverses: C08 and C10 give existence and the two-sided identity; inverses of Mathlib matrices are unique, so the
  candidate of each law is what the code returns whenever the determinant passes the threshold.
* **C115** Change of basis: `Matrix.det_mul`, `Matrix.trace_mul_comm` transported along `toM`; eigenvalues depend on trace and determinant only.
* **C116** Uniqueness of QR: with C17/C18 both factorisations are orthogonal times triangular; `Q₁ᵀQ₂` is orthogonal and upper triangular
  with positive diagonal, hence the identity.
* **C117** Isometries and groups: polynomial identities from the relations of `SO3Rels`, the Frobenius norm as a trace; `from_rotation` by C48 and C49.
* **C118** Recovering parameters: `Complex.arg` of a point in polar form; `arccos (cos t) = t`; the translation map of the logarithm is a two-sided
  inverse of that of the exponential.
* **C119** Interpolation: closed form of `slerp` as a combination of the end points with coefficients depending on the scalar product only, then
  addition formulas; for `screw_lerp` the screw of C67.
* **C120** `C105_product` twice for the dual quaternions (doubling is shown to be exact), the expression technique for the rest.
* **C121** Found by mutation testing (wrong flags and swapped array entries survived). Evaluation of the constructors; `is_normalized` by `C35`.
* **C122** `Examples.eigenvalues` is the loop by recursion on the remaining count. Similarity from `C32`; backward error with `E = -Q low Qᵀ`; convergence of the unshifted QR iteration for every size in `Lemmas/QrIter.lean` (A^k = Q-product times R-product, uniqueness of QR, compactness of the orthogonal group). The stopping test is **false** as a criterion: negation with the cyclic permutation matrix.
* **C123** The programs as functions of their data; from C51, C118, C68, C63, C61, C62, C08, C11, C24, C32.
* **C124** The run of `qr` is described law-free (`Lemmas/QrFree.lean`): column `j` of `Q` is the normalized Gram-Schmidt remainder. `Ieee/QrCol.lean` bounds a normalized vector in IEEE arithmetic, including underflow and overflow of the squared norm; `Lemmas/FrobCert.lean` bounds the residual from `R = QᵀA` and the product error of C93. Orthogonality is **false**: the witnesses are run on computable floats (`Ieee/Comp.lean`, `Ieee/QrRel.lean`) by kernel evaluation and carried over to the IEEE model.
* **C125** `Ieee/Mono.lean` proves that rounding is monotone, so a rounded value below a float is below it exactly; then case analysis of `nearly_equal` with the error of the difference, the sum and the quotient. Acceptance of rounded rotations is **false** (witnesses by kernel evaluation on computable floats).
* **C126** `Ieee/Near.lean`: a calculus of finite floats within `e` of a real number, one rule per operation. In every branch of `from_rotation` the pivot is `4 a^2 >= 1 - 3 delta` for the component `a` of the exact quaternion, whatever the exact matrix would have selected; then the rules.
* **C127** The calculus of C126. The direction comes from the relative bound of C106; the argument of a complex number moves by at most pi times the distance to a unit number (`Lemmas/ArgLip.lean`).
* **C128** Induction on the chain from the right. One step adds `delta` from the factor and the rounding of one product (C105, C93); exact unit factors do not enlarge earlier errors. Finiteness of every intermediate result follows from the bound (C103, C105).
* **C129** The discriminant is a polynomial expression, so its error comes from the expression theorem; then the square root and the two quotients by hand. Witnesses by evaluating computable floats in the kernel.
* **C130** Rounding commutes with powers of two outside underflow, and sums of floats never underflow harmfully. The polynomial functions are run on expressions; a kernel-evaluated check that the expression is homogeneous, and a lemma that values stay multiples of a power of two, give exact scaling. `sqrt` and division by hand.
* **C131** The error of `norm2` (C106) enters through the Lipschitz constant of sine and cosine; the Rodrigues formula is followed operation by operation with the `Near` rules, using that most products in the square of an antisymmetric matrix are exact zeros. The exact value is the exponential series (C78).
* **C132** The trace, the inverse cosine (Lipschitz constant by the mean value theorem away from ±1), the sine and the quotient are followed with the `Near` rules; the exact exponential is Rodrigues' formula (C78, C131). Witness by evaluating computable floats in the kernel, with sine and cosine of 2^-27 enclosed by their Taylor bounds.
* **C133** The exact exponential is the closed form of C81, read off entry by entry. The matrix applied to the translation is followed with the `Near` rules; moving from the computed to the exact norm uses the Lipschitz constants of sine and cosine. Witness by evaluating computable floats in the kernel.
* **C134** Sine and cosine of a computed angle are the direction of a perturbed point, so no case distinction at the cut of `atan2` is needed. The length of the column has a relative error (no loss for short columns). The test for gimbal lock cannot fire when the cosine of the pitch is large enough (soundness of `nearly_equal`, C125). Witness for every format: gimbal lock perturbed by 32 u.
* **C135** The dot product by the rules for rounding errors, the half angle through the Lipschitz constant of arccos, its sine from sqrt(1 - c^2), where the cancellation costs a division by the sine; the quotients by the sine cost another one. Witness by kernel evaluation of computable floats, for every library.
* **C136** Induction over the chain with the error bounds of the quaternion product (C105, C120); the invariant bounds the dual part by n P. The matrix of the exact product is the product of the matrices (C62). Building: `normalize` near a unit quaternion by the rules for rounding errors, `from_rotation` by C126.
* **C137** Induction over the chain: the rounding error of one product (C93) in the Frobenius norm, exactness of the last row, no overflow (C103, C120); rotations preserve the norm, so errors add. Translations are written as matrices with one column so that one norm serves for both.
* **C138** Backward bounds for the norm of the vector part (5 u relative plus 2 u^2), then real arithmetic for the two branches of the code; comparison with Mathlib's exponential of quaternions (`Quaternion.exp_eq`). The scale factor e^re sin(n)/n can be as large as 1/epsilon, hence the hypothesis `Fmt.Wide` on the exponent range, true for f32 and f64.
* **C139** The exponential does not increase distances of pure quaternions (`exp_lip`, derivative of exp(tv) exp((1-t)w)), so an error bound for the vector part of the logarithm is one for the result. Above epsilon the computed vector is compared with the polar angle times the direction (perturbation of `Complex.arg`), below epsilon with 0 or pi times i. The square root halves the logarithm, which is exact up to underflow.
* **C140** The angles by C134, the quaternion of the angles by C109, and two unit quaternions whose matrices agree to e in every entry agree up to sign to 3e/2 (the squared distance of the matrices is 8 (1 - d^2), d the inner product).
* **C141** Error propagation (`Near`, `NearBig` without a size limit) through each line of `pow`, with the axis, the displacement and the moment bounded by the size of the dual part; `screw_lerp` by C136 and the power. The counterexample is evaluated in the kernel (`BF`).
* **C142** Wrapping integers are a commutative ring and reduction is a ring homomorphism from the integers (`Checked/Wrap.lean`); the entry formulas, valid in every ring, give the rest.
* **C143** Error propagation through `get_screw_parameters`, `new_from_screw_parameters` and `log`; the angle by the Lipschitz bound of the complex argument (`Lemmas/ArgLip`), the translation by C136, the cotangent relative to `1 / sin`. Exact part: the displacement and the moment from the translation of a screw (`Lemmas/Screw`). That a correctly rounded tangent meets the hypothesis uses that π is irrational.
* **C144** Each side is brought to a Rodrigues rotation about the same axis, or to the closed form of the exponential of a twist; the theorems about the single representations (C51-C58, C67, C78-C82, C118, C119) do the rest (`Props/Agree.lean`).
* **C145** The generic model functions are run on triples (checked value, exact integer, bound) whose operations carry the two statements "a returned value is exact" and "if the bound fits the value is returned" (`Checked/Trace.lean`); the integer side is then compared with Hamilton quaternions (`Props/CheckedQuat.lean`). Integer division is truncated, as in Rust.
* **C146** Determinant and cofactors are exact for integer entries in range (C104 applied to the minors, `Lemmas/InvInt.lean`), the zero test is then the test for determinant zero (C91), and an entry is a quotient of two exact integers rounded twice. The data of `solve_linear_system.rs` are checked against their exact adjugate (`Props/IeeeInvInt.lean`).
* **C147** Induction over the slice: for `find_max_min` an invariant of the loop over the prefix, with NaN as incomparable; for the sums the recursion of the rounding error and the fact that sums of nonnegative floats are never NaN (`Props/IeeeSlices.lean`).
* **C148** One direction of each equivalence is in the partial theorem of the property concerned; the other shows that the deviation never happens to be harmless. For `matrix_exponential6` below the threshold the exponential is known to be rigid by applying C81 with a smaller EPSILON; for `matrix_log` the exponential fixes the vector of the logarithm, the half turn does not (`Props/Extent.lean`).
* **C149** The functions are run on symbolic expressions and the kernel checks that the variable in question occurs in each output; a NaN in an occurring variable makes sums, differences and products NaN (`Lemmas/NanExpr.lean`, `Props/IeeeNan.lean`). For `inverse` and `normalize` every entry is a quotient by the NaN determinant or norm.
* **C150** The error of the norm (C139) and of the quotients; soundness and completeness of `nearly_equal` (C125) applied to the norm and to each entry of the dual part. The counterexample is evaluated with the computable floats.
* **C151** Composition of C139 (logarithm), C105 (product with the exponent) and C138 (exponential); that exponentials of close quaternions are close is proved on the norms of the real and vector part (`exp_near`). The integer exponents follow from `exp (2 l) = exp l * exp l` and `exp (-l) * exp l = 1` (`Props/IeeeQuatPow.lean`). The derivative is C105 for the halved velocity.
* **C152** The residual is split into the adjugate identity `A adj A = det A` and the errors of the entries (C113) and of the determinant (C102); the product adds C102 (`Lemmas/Resid.lean`, generated `Props/IeeeResid.lean`).
* **C153** Determinant of a perturbed rotation (first order, entrywise), the rounding error of the 4x4 determinant (C102) with a permanent that does not see the translation, the product of two poses (C137) and the completeness of `nearly_equal` (C125) (`Props/IeeePose.lean`).
* **C154** Evaluation order of each sum (as in C93), the error of ordered sums, and a norm bound that adds the root of the underflow term (`Ieee/SumNorm.lean`, `Props/IeeeMatNorm.lean`).
* **C155** Frobenius-norm perturbation of the computed product and difference, the norm bound of C154, the determinant near a rotation (as in C153) (`Props/IeeeManifold.lean`).
* **C156** The exact logarithm entry by entry from C118 (`Lemmas/Log6.lean`), then the error of the angle, the cotangent, the coefficient and the matrix applied to the translation, on top of C132 (`Props/IeeeLog6.lean`).
* **C157** As C148 (`Props/Extent2.lean`). YZX: the named product is the computed one with the axes exchanged cyclically, so equality means commuting with a turn about the diagonal. Euler angles: in the band the roll is set to zero, so the result can only be right if the roll is zero. `screw_lerp`: cancel the homogeneous matrix of the start.
* **C158** (`Props/IeeeQuatTrig.lean`.) Write the quaternion as `a + n d` with a unit imaginary `d`. The computed direction is within `5u` of `d` (C139), the computed products within `95u` of `-n + a d` and its negative (C105), so the computed exponentials are within `7ε + 445u` of the exact ones (C138 and the Lipschitz bound of the exponential); sum, difference, and the division by `2d` add a few ulps.
* **C159** (`Props/IeeeAxisAngle6.lean`.) The branch is decided by `nearly_zero_flt` and the norm error of C147; the axis by the error of one division by a perturbed norm. The zero twist divides 0 by 0. Dual quaternion sums reduce to C158 on both parts.
* **C160** (`Props/IeeeExamples.lean`.) The rounding error of `v + t q0 + q x t` is followed with the `Near` rules for any quaternion of norm at most 9/8; the exact value of that expression is `q v q* + (1 - |q|^2) v`, which is compared with `Q v Q*` in norm. The fourth power takes three steps `a -> 1.04 a + d + 9.5 u` from C127 and C158. For a quarter turn the exact fourth power is within `10 u` of `-1`.
* **C161** (`Props/IeeeExamples2.lean`.) Points and translations are exact or half-exact dual quaternions; `DQuat.Close.mul` (C136) carries the error through the two products of `transform_point` and the one of `norm`. The programs combine C109 (Euler angles), C126 (rotation matrices), C127 (norm-encoded rotations), C136 (building motions) and C143 (screw parameters) with one exact dual quaternion to which both sides are close.
* **C162** (`Props/IeeeGetAxis.lean`.) `Quat.normalize_near` bounds the error of the normalization in `get_axis`, `axis_part` (C143) that of angle, sine and quotient; the length of the computed axis is one up to `1510 (e + a + u) / sin (t/2)`, and multiplying by the sine removes the denominator again.
* **C163** (`Props/QuatBuilt2.lean`.) Inductive predicate `Quat.Reach` with one constructor per public function, no side conditions. `exp` flags arguments of norm below EPSILON, where it multiplies by `e^r` without the factor `sin n / n`; `1 - eps <= e^r` and `e^r (1 + n^2)` bound the norm. All other flag-setting functions are exact (C44), `normalize` and `slerp` pass a flagged quaternion on unchanged.
* **C164** (`Props/MotionPrograms.lean`.) Inductive type `Motion` of programs with two evaluators, `Motion.dual` and `Motion.hom`, each calling the model functions only. Simulation by induction over the program: the invariant is that the dual quaternion is a unit dual quaternion whose `to_homogeneous` is the matrix. Equality up to sign comes from C48 (double cover) and `2 q_dual = t q_real`.
* **C165** (`Props/IeeeQuatPrograms.lean`.) Inductive type `QuatProgram` with a float evaluator `run` and an exact one. Induction over the program; one lemma per operation: product `g k (1 + 9u)`, inverse and normalize `g^2 (1 + 9u)` (for inverse from `1/(2-g) <= g^2` for `g <= 3/2` and the relative error of `abs2`).
* **C166** (`Props/IeeeMotionPrograms.lean`.) Inductive type `DualProgram` with a float evaluator `run`, an exact one and one with real matrices. Induction over the program; one lemma per operation: product `g k (1 + 11u)`, inverse `g^5 (1 + 9u)^4` (real part as in C165, dual part from two products of quaternions of different sizes, the exact value of `-r d r` being `conj d` by orthogonality), normalize `g^4 (1 + 9u)`.
* **C167** (`Props/IeeeEulerAgain.lean`.) Sines and cosines of the computed angles from `rotation_to_euler_near` (the first half of the proof of C134), then angles from chords: `|2 sin(t/2)| <= sqrt 2 d` and `2/pi x <= sin x`.
* **C168** (`Props/IeeeHomogPrograms.lean`.) Inductive type `HomProgram`; induction with `hclose_mul` and `C137_inverse`. Agreement: `DualProgram.matrix` translates a program of dual quaternions, the leaves being close by `C136_to_homogeneous`, and both results are close to `DualProgram.hom`.
* **C169** (`Props/IeeeRotPrograms.lean`.) Inductive type `RotProgram`; induction with one product in the Frobenius norm (`frob_round`, `C93_mul_M33`). Agreement: `QuatProgram.matrix` translates a program of quaternions, the leaves being close by `C126_to_rotation`, and both results are close to the rotation of `QuatProgram.exact`.

## 4. Where code and property disagree

For each of these the negation is proved with a concrete witness (`…_false`) beside a theorem
(`…_partial`) saying what does hold.

* **C04** Vector-matrix product is the row-vector product. False for V3: vector3.rs multiplies a row vector by a 3x3 matrix as M*v; negation with witness, and what V3 does compute is proved.
* **C10** inverse fails only for singular matrices. False: matrices with non-zero determinant below EPSILON are reported as singular; proved: |det| >= EPSILON gives Some.
* **C18** norm_inf is the infinity norm. False: norm_inf returns the largest element, not the largest absolute value; proved: it is the maximum, and the infinity norm on non-negative vectors.
* **C29** LU panics only for the zero matrix. False: `big` is not reset per row, so the check only looks at the first row; a non-zero matrix with a zero first row panics. Partial: lu panics iff the first row is zero.
* **C30** LU of a singular matrix reports determinant zero. False: a zero pivot is replaced by 1e-40, so the reported determinant is never 0. Partial: lu factors P*A plus 1e-40 on some diagonal entries (exactly when A is singular) and reports the determinant of that matrix.
* **C36** nearly_equal treats tiny values absolutely. False: the absolute-comparison branch near zero is dead (compares with min_value); proved for the branches that are reachable.
* **C38** compare_vecs compares whole vectors. False: compare_vecs ignores trailing elements of the longer slice; proved for equal lengths.
* **C39** is_rotation recognises rotations. False: is_rotation accepts any matrix of determinant 1; proved: rotations are accepted, and acceptance forces det within EPSILON.
* **C43** Quaternion == is numeric equality. False: == also compares the normalized flag, so one()*one() != one(); proved: == is equality of components and flag.
* **C44** The normalized flag is truthful. False for exp (flag set for small arguments); proved truthful for every other public function, in any combination.
* **C54** rotation_to_euler round trip. False inside a band around gimbal lock (code switches to the gimbal formulas although the angles are still determined); proved exact at gimbal lock and at distance 4 EPSILON or more, within 12 EPSILON in each entry for all rotations.
* **C58** slerp. False in the nearly-parallel branch (components 1 and 2 of b swapped; zero quaternion for negative dot); proved whenever the sine of the angle is at least 0.001 or the arguments are parallel.
* **C61** Rotation+translation acts as a rigid motion. False for transform_point: the code multiplies by conj() where conj_combined() is needed, so every point is only rotated and never translated (new_from_translation(t).transform_point(p) = p); proved: the real part, get_translation, to_rotation_translation, to_quaternion_translation and to_homogeneous are right.
* **C62** Dual quaternion product composes motions. False: transform_point is not to_homogeneous applied to (p,1) (it omits the translation); proved: to_homogeneous of a product is the product, products of unit dual quaternions are unit, transform_point composes.
* **C64** Dual quaternion inverse. False for new_from_rotation / new_from_rotation_matrix of arguments that are not rotations (flag set without looking); proved: two-sided inverse whenever the flags are truthful, exact panic condition, and the flags are truthful for every other constructor and operation.
* **C65** Dual quaternion normalize. False: the dual part is only scaled, not orthogonalised; proved: exact None condition, real part of norm 1, result proportional to the argument, unit exactly when the parts are orthogonal.
* **C66** Dual quaternion division. False in general (the formula assumes commuting real parts); proved: a/a = 1, exact panic condition, the real part is always right, and all of it when the divisor's real part commutes with the dividend.
* **C67** Dual quaternion pow. False for pure translations: below the threshold the code uses new_from_point, doubling the translation; proved for angles in [EPSILON, 2 pi): same line, e times angle and displacement, exponent laws; and that new_from_screw_parameters is the screw motion.
* **C69** screw_lerp end points. False at the start point when the code's sign test (real part of the quaternion product) is negative (translation negated), and at the end point for motions that differ by a translation; proved in all other cases, and what is returned in the first.
* **C70** is_normalized is truthful. False for real parts of norm below EPSILON (answer true, e.g. zero()); proved: otherwise true forces the norm within 3 EPSILON of 1, norm exactly 1 is accepted.
* **C71** Dual quaternion log is total on unit values. False: log of the identity or of a pure translation panics; proved: None exactly for unflagged, panic exactly when the rotation axis is undefined, the components otherwise.
* **C73** euler_to_rotation follows the named sequence. False for EulerSeq::YZX, which multiplies rotx*roty*rotz; proved for the other sequences, the default, and that every result is a rotation.
* **C80** matrix_log. False for half turns about (nearly) the x axis (third half-turn branch uses 1 + r10) and for angles below EPSILON (matrix_exponential returns the identity); proved: antisymmetric always, exp(log R) = R for all other R, matrix_exponential(matrix_log R) = R when additionally the angle is 0 or at least EPSILON.
* **C81** matrix_exponential6. False for twists without rotation: the code's translation branch has a stray 1 at (0,2); proved for rotation part at least EPSILON, never panics, and what the branch returns.
* **C82** matrix_log6. False for pure translations (stray 1 in matrix_exponential6) and the half turns of C80; proved: result in se(3), exp(log6 H) = H outside those half turns (pure translations included), round trip for angles at least EPSILON.
* **C87** get_parts. Inherits the band of C54; proved: unit quaternion, exact translation, rotation exact outside the band and within 12 EPSILON in each entry always.
* **C97** == and is_zero are exact and element-wise. Exact reals and IEEE. False for dual quaternions: is_zero is ==, which compares the normalized flags, so an all-zero dual quaternion flagged normalized is not zero; proved for unflagged ones.
* **C101** Display writes the elements in order and nothing else. False: formatting a matrix of any size prints a newline on stdout; proved: the destination text of every type, and no stdout output for vectors and quaternions. The text of one number is a parameter.
* **C112** IEEE: the sine of a finite quaternion exists. False: `Quaternion::sin` panics on finite quaternions whose imaginary part has a squared length that overflows (`argq` divides by an infinite norm, giving zero, and `sin` unwraps the inverse of zero); proved: these are the only panics, NaN and infinite components included.
* **C122** The stopping test of `examples/eigenvalues.rs`. False: `check_elements` is true when *some* entry below the diagonal is small, so for the matrix of a cyclic permutation the example stops after one step and prints 0, 0, 0, none of which is an eigenvalue; proved: correct when all entries below the diagonal are zero, and always a backward error equal to what is left below the diagonal.
* **C124** IEEE: `qr` of a matrix with determinant 1 gives an orthogonal `Q`. False for f32 and f64 and sizes 2 to 6 (classical Gram-Schmidt, and `qr` only refuses when the determinant is nearly zero): for `[[2309, 2066], [2290, 2049]]` in f32 the columns of `Q` have inner product -0.95 and `Q*R` misses an entry by more than 1000; for `[[2780, 2321], [2459, 2053]]` the second column of `Q` is NaN. Proved: bounds on the columns and a residual certificate.
* **C125** IEEE: `is_rotation` accepts rotation matrices rounded to floats. False: the tolerance is the machine epsilon, so the rounding of the entries and of the two determinants is enough to fail; the f32 rounding of 1/3 [[1,-2,2],[2,-1,-2],[2,2,1]] and the f64 rounding of 1/7 [[3,-2,6],[6,3,-2],[-2,6,3]] are rejected. Proved: accepted when the entries are 0, 1, -1; accepted matrices have determinant close to 1.
* **C129** IEEE: `real_eigenvals` finds the real eigenvalues of a float matrix. False in f64: for the diagonal matrix of 1 + 2^-52 and 1 + 2^-50 the rounded discriminant is negative and the answer is None; for the diagonal matrix of 1 and 2^-60 the second eigenvalue comes back as 0. Proved: None only within the rounding error of a zero discriminant, and an error bound in terms of the exact discriminant.
* **C132** IEEE: `matrix_log` undoes `matrix_exponential` up to roundoff. False in f64: the angle is recovered from the trace, which is 3 exactly for the rotation by 2^-27 (about 7e-9) about the third axis, so the logarithm is the zero matrix although the rotation matrix is not the identity. Proved: an error bound of order u / sin² of the angle.
* **C133** IEEE: `matrix_exponential6` is accurate to roundoff. False in f64: the code divides `1 - cos θ` by `θ`; for the rotation vector (0, 0, 2^-27) and translation (1, 0, 0) the second translation component is computed as 0, the exact value is about 2^-28. Proved: an error bound that grows like u / N for small angles N.
* **C134** IEEE: `rotation_to_euler` describes the matrix it was given. False in every format next to gimbal lock: [[t,0,1],[0,1,0],[-1,0,-t]] with t = 32 u is within 32 u of a rotation; the pitch is not recognised as a quarter turn (the test allows a few u), so yaw and roll are taken from the entries ±t and the rotation described by the angles is off by about 2 in an entry. Proved: an error bound that grows like δ / cos(pitch).
* **C135** IEEE: `slerp(a, a, t)` is `a`. False in f64 for a = normalize(1 + 2i + 4j + 10k): the computed dot product is 1 - 2^-53, so the early return for equal quaternions is not taken, the sine of the half angle is below 0.001, and the branch for nearly parallel quaternions exchanges the entries j and k (at t = 1 an error of more than 1/2). For `slerp(a, -a, t)` that branch returns the zero quaternion. Proved: an error bound away from parallel and orthogonal quaternions.
* **C140** IEEE: `get_parts` returns a quaternion of the rotation. False close to gimbal lock, as C134: a float pose within 32u of a rigid one, and the matrix of the returned quaternion off by more than 1/2. `from_rotation` (C126) has no such restriction. Proved: an error bound that grows like the inverse of the cosine of the pitch.
* **C141** IEEE: `screw_lerp(a, a, t)` is `a`. False: `pow` takes the inverse cosine of the real part of `a⁻¹ a`, which rounding can put above 1 (for the normalised quaternion `2 + i + j` in `f64` it is `1 + 2^-52`); all eight entries of the result are NaN. Clamping the argument to `[-1, 1]` would cure it. Proved: an error bound that grows like `1 / sin²(θ/2)`.
* **C143** IEEE: `new_from_screw_parameters` inverts `get_screw_parameters`. False for pure translations: the moment is reported as infinite, and `∞ * sin 0` is NaN. Proved: the round trip up to rounding when the angle is not small.
* **C150** IEEE: products of normalised dual quaternions are recognised as normalised. False: `is_normalized` compares the norm with 1 up to `EPSILON` relatively to the sum, and a product of two normalised rotations can be `4u` away from 1. Proved: the drift is bounded, and normalising again repairs it.

Other findings, stated inside theorems that are not partial:

* C90: the 4x4 product sums the third row in another order than the other rows, so `(A*B)^T` and `B^T*A^T` can
  differ in the last bit (`C90_transpose_mul_M44_differs`).
* C91: `inverse()` of a matrix whose determinant is NaN or infinite returns `Some`.
* C92, C106: `normalize()` returns the zero vector (or a zero quaternion flagged as normalized) when
  the norm overflows, and `Err` for tiny non-zero vectors.
* C111: `axis_angle` and `Quaternion::rotation` panic on nonzero vectors whose squares underflow to zero.
* C68: half turns use the convention `cot = 0`; C67 excludes real part −1.
* C95: within the EPSILON band the direction of the imaginary part is taken to be the x axis.
* C57: exactness of `sqrt` needs twice the EPSILON distance.


## 5. Mutation testing

Realistic bugs are seeded one at a time into a scratch copy of the model (never in `/verif`): a wrong
index, a flipped sign, a swapped operand order, a dropped term, a wrong threshold, a lost flag, an
off-by-one loop bound, a wrong branch. The copy is rebuilt, keeping broken proofs as errors, and the
property theorems that no longer hold up are listed (a theorem counts as failed when its own proof or a
lemma it uses breaks). `seeded/LOG.jsonl` has one line per attempt. A mutant whose English claim is
false but whose theorems all still prove is a survivor; the theorems were then tightened and the
attempt repeated under the same number with a letter (`m020` → `m020b`).

Entries `m…` were written by hand: the claim the edit should break was written down before the run. Entries
`a…` and `b…` were generated from fixed operators (sign, operator, index, constant, operand swap, dropped branch,
flag) applied at random places of the model. For these `claim_broken` was filled in *after* the run from the theorems
that failed (field `claim_source`), so they show that some theorem notices the edit, and not that every claim
whose English statement the edit breaks does; the hand-written entries are the ones that test that. Where an edit
made no theorem of the expected claim fail, the note says whether that claim really is silent about it, checked by
hand one entry at a time. One of these (`m123`, C44) had first been noted as silent and was not; it led to
`C44_built_partial`. Edits that no longer typecheck are not counted. Three generated runs (`a0290`–`a0292`) are left out because
the generator named the wrong definition, so the wrong modules were rebuilt; the same edits are `a0293`, `a0294`.
A failed theorem is one whose proof no longer checks in the edited copy; this does not by itself prove the theorem
false there.

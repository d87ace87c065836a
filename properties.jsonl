{"id": "C01", "title": "Matrix product is the mathematical product", "statement": "For M22..M66, entry (i,j) of `a * b` equals the sum over k of a[(i,k)]*b[(k,j)].", "quantifier": "all sizes 2..6, all matrices over every commutative ring (covers wrapping machine integers, rationals, exact reals)", "why_tests_cant": "The entries range over an infinite (or 2^(32*n^2)) set; a test fixes a handful of matrices and a wrong sign/index can hide in entries that are zero or equal in the sample.", "anchors": ["src/matrix2x2.rs:Mul for M22<T>", "src/matrix3x3.rs:Mul for M33<T>", "src/matrix4x4.rs:Mul for M44<T>", "src/matrix5x5.rs:Mul for M55<T>", "src/matrix6x6.rs:Mul for M66<T>"]}
{"id": "C02", "title": "Matrices form a ring under the overloaded operators", "statement": "For M22..M66 the operators + - * and unary -, with zeros() and identity(), satisfy the ring laws: associativity of + and *, commutativity of +, both distributive laws, a+0=a, a-b=a+(-b), a+(-a)=0, 1*a=a*1=a; += and -= agree with + and -.", "quantifier": "all sizes 2..6, all triples of matrices over every commutative ring", "why_tests_cant": "The entries range over an infinite (or 2^(32*n^2)) set; a test fixes a handful of matrices and a wrong sign/index can hide in entries that are zero or equal in the sample.", "anchors": ["src/matrix2x2.rs:Add", "src/matrix2x2.rs:Sub", "src/matrix2x2.rs:Mul", "src/matrix2x2.rs:Neg", "src/matrix2x2.rs:AddAssign", "src/matrix2x2.rs:SubAssign", "src/matrix2x2.rs:Zero", "src/matrix2x2.rs:One", "src/matrix3x3.rs:Add", "src/matrix3x3.rs:Sub", "src/matrix3x3.rs:Mul", "src/matrix3x3.rs:Neg", "src/matrix3x3.rs:AddAssign", "src/matrix3x3.rs:SubAssign", "src/matrix3x3.rs:Zero", "src/matrix3x3.rs:One", "src/matrix4x4.rs:Add", "src/matrix4x4.rs:Sub", "src/matrix4x4.rs:Mul", "src/matrix4x4.rs:Neg", "src/matrix4x4.rs:AddAssign", "src/matrix4x4.rs:SubAssign", "src/matrix4x4.rs:Zero", "src/matrix4x4.rs:One", "src/matrix5x5.rs:Add", "src/matrix5x5.rs:Sub", "src/matrix5x5.rs:Mul", "src/matrix5x5.rs:Neg", "src/matrix5x5.rs:AddAssign", "src/matrix5x5.rs:SubAssign", "src/matrix5x5.rs:Zero", "src/matrix5x5.rs:One", "src/matrix6x6.rs:Add", "src/matrix6x6.rs:Sub", "src/matrix6x6.rs:Mul", "src/matrix6x6.rs:Neg", "src/matrix6x6.rs:AddAssign", "src/matrix6x6.rs:SubAssign", "src/matrix6x6.rs:Zero", "src/matrix6x6.rs:One"]}
{"id": "C03", "title": "Matrix-vector product acts linearly and composes", "statement": "M*v is the column-vector product (entry i is the sum of m[(i,k)]*v[k]); (A*B)*v = A*(B*v), A*(v+w)=A*v+A*w, identity*v=v.", "quantifier": "all sizes 2..6, all matrices and vectors over every commutative ring", "why_tests_cant": "The entries range over an infinite (or 2^(32*n^2)) set; a test fixes a handful of matrices and a wrong sign/index can hide in entries that are zero or equal in the sample.", "anchors": ["src/matrix2x2.rs:Mul<V2<T>> for M22<T>", "src/matrix3x3.rs:Mul<V3<T>> for M33<T>", "src/matrix4x4.rs:Mul<V4<T>> for M44<T>", "src/matrix5x5.rs:Mul<V5<T>> for M55<T>", "src/matrix6x6.rs:Mul<V6<T>> for M66<T>"]}
{"id": "C04", "title": "Vector-matrix product is the row-vector product", "statement": "v*M has entry j equal to the sum over i of v[i]*m[(i,j)], hence (v*M)·w = v·(M*w).", "quantifier": "all sizes 2..6, all vectors and matrices over every commutative ring", "why_tests_cant": "A test with a symmetric matrix (or one whose product coincides) cannot distinguish v*M from M*v; only the universally quantified statement can.", "anchors": ["src/vector2.rs:Mul<M22<T>> for V2<T>", "src/vector3.rs:Mul<M33<T>> for V3<T>", "src/vector4.rs:Mul<M44<T>> for V4<T>", "src/vector5.rs:Mul<M55<T>> for V5<T>", "src/vector6.rs:Mul<M66<T>> for V6<T>"]}
{"id": "C05", "title": "Transpose", "statement": "transpose swaps the two indices, is an involution, commutes with + and scalar multiplication and reverses products: (A*B)^T = B^T*A^T.", "quantifier": "all sizes 2..6, all matrices (index law and involution: over every element type; product law: every commutative ring)", "why_tests_cant": "The entries range over an infinite (or 2^(32*n^2)) set; a test fixes a handful of matrices and a wrong sign/index can hide in entries that are zero or equal in the sample.", "anchors": ["src/matrix2x2.rs:transpose", "src/matrix3x3.rs:transpose", "src/matrix4x4.rs:transpose", "src/matrix5x5.rs:transpose", "src/matrix6x6.rs:transpose"]}
{"id": "C06", "title": "det is the Leibniz determinant", "statement": "The hand-expanded det() of every size equals the sum over permutations of sign(σ)*Π a[i,σ(i)].", "quantifier": "all sizes 2..6, all matrices over every commutative ring", "why_tests_cant": "The 6x6 expansion has 720 signed products; a test cannot exercise each one separately and a single wrong sign is invisible for matrices where the product vanishes.", "anchors": ["src/matrix2x2.rs:det", "src/matrix3x3.rs:det", "src/matrix4x4.rs:det", "src/matrix5x5.rs:det", "src/matrix6x6.rs:det"]}
{"id": "C07", "title": "det is multiplicative", "statement": "det(A*B)=det(A)*det(B), det(A^T)=det(A), det(identity)=1, det(A*c)=c^n*det(A), det(-A)=(-1)^n*det(A), and a matrix with two equal rows has det 0.", "quantifier": "all sizes 2..6, all matrices and scalars over every commutative ring", "why_tests_cant": "The entries range over an infinite (or 2^(32*n^2)) set; a test fixes a handful of matrices and a wrong sign/index can hide in entries that are zero or equal in the sample.", "anchors": ["src/matrix2x2.rs:det", "src/matrix3x3.rs:det", "src/matrix4x4.rs:det", "src/matrix5x5.rs:det", "src/matrix6x6.rs:det"]}
{"id": "C08", "title": "inverse is a two-sided inverse", "statement": "Whenever A.inverse() returns Some(B), A*B = identity and B*A = identity (exact arithmetic).", "quantifier": "all sizes 2..6, all real matrices for which Some is returned", "why_tests_cant": "The entries range over an infinite (or 2^(32*n^2)) set; a test fixes a handful of matrices and a wrong sign/index can hide in entries that are zero or equal in the sample.", "anchors": ["src/matrix2x2.rs:inverse", "src/matrix3x3.rs:inverse", "src/matrix4x4.rs:inverse", "src/matrix5x5.rs:inverse", "src/matrix6x6.rs:inverse"]}
{"id": "C09", "title": "inverse decides by the epsilon test on det", "statement": "A.inverse() never panics; it returns None exactly when |det(A)| < EPSILON (exact arithmetic), so it returns None for every singular matrix.", "quantifier": "all sizes 2..6, all real matrices, every threshold 0 < EPSILON <= 1e-6", "why_tests_cant": "Boundary behaviour over all matrices; singular matrices have measure zero.", "anchors": ["src/matrix2x2.rs:inverse", "src/matrix3x3.rs:inverse", "src/matrix4x4.rs:inverse", "src/matrix5x5.rs:inverse", "src/matrix6x6.rs:inverse", "src/utils.rs:nearly_zero"]}
{"id": "C10", "title": "inverse fails only for singular matrices", "statement": "A matrix with non-zero determinant has an inverse: inverse() returns Some for every invertible matrix.", "quantifier": "all sizes 2..6, all real matrices", "why_tests_cant": "Tests use well-scaled matrices; the claim fails only for matrices of small determinant such as a scaled identity.", "anchors": ["src/matrix2x2.rs:inverse", "src/matrix3x3.rs:inverse", "src/matrix4x4.rs:inverse", "src/matrix5x5.rs:inverse", "src/matrix6x6.rs:inverse"]}
{"id": "C11", "title": "inverse solves linear systems", "statement": "If A.inverse() = Some(B) then x = B*b satisfies A*x = b and is the only such x.", "quantifier": "all sizes 2..6, all real matrices and right-hand sides", "why_tests_cant": "The entries range over an infinite (or 2^(32*n^2)) set; a test fixes a handful of matrices and a wrong sign/index can hide in entries that are zero or equal in the sample.", "anchors": ["src/matrix2x2.rs:inverse", "src/matrix3x3.rs:inverse", "src/matrix4x4.rs:inverse", "src/matrix5x5.rs:inverse", "src/matrix6x6.rs:inverse", "examples/solve_linear_system.rs"]}
{"id": "C12", "title": "trace laws", "statement": "trace is the sum of the diagonal entries; it is linear, trace(A*B)=trace(B*A), trace(A^T)=trace(A).", "quantifier": "all sizes 2..6, all matrices over every commutative ring", "why_tests_cant": "The entries range over an infinite (or 2^(32*n^2)) set; a test fixes a handful of matrices and a wrong sign/index can hide in entries that are zero or equal in the sample.", "anchors": ["src/matrix2x2.rs:trace", "src/matrix3x3.rs:trace", "src/matrix4x4.rs:trace", "src/matrix5x5.rs:trace", "src/matrix6x6.rs:trace"]}
{"id": "C13", "title": "Matrix norm2 is the Frobenius norm", "statement": "norm2() is sqrt of the sum of the squares of the entries; it is >=0, zero only for the zero matrix, homogeneous, satisfies the triangle inequality and submultiplicativity norm2(A*B)<=norm2(A)*norm2(B), and is unchanged by transpose.", "quantifier": "all sizes 2..6, all real matrices and scalars", "why_tests_cant": "The entries range over an infinite (or 2^(32*n^2)) set; a test fixes a handful of matrices and a wrong sign/index can hide in entries that are zero or equal in the sample.", "anchors": ["src/matrix2x2.rs:norm2", "src/matrix3x3.rs:norm2", "src/matrix4x4.rs:norm2", "src/matrix5x5.rs:norm2", "src/matrix6x6.rs:norm2"]}
{"id": "C14", "title": "Vector norm2 and dot are the Euclidean ones", "statement": "v*w is the sum of the products of the components, symmetric and bilinear; norm2(v)^2 = v*v; norm2>=0 with equality only for zero; norm2(v*c)=|c|*norm2(v); triangle inequality; Cauchy-Schwarz |v*w|<=norm2(v)*norm2(w).", "quantifier": "all sizes 2..6, all real vectors", "why_tests_cant": "The entries range over an infinite (or 2^(32*n^2)) set; a test fixes a handful of matrices and a wrong sign/index can hide in entries that are zero or equal in the sample.", "anchors": ["src/vector2.rs:norm2", "src/vector2.rs:Mul for V2<T>", "src/vector3.rs:norm2", "src/vector3.rs:Mul for V3<T>", "src/vector4.rs:norm2", "src/vector4.rs:Mul for V4<T>", "src/vector5.rs:norm2", "src/vector5.rs:Mul for V5<T>", "src/vector6.rs:norm2", "src/vector6.rs:Mul for V6<T>"]}
{"id": "C15", "title": "Vector normalize", "statement": "normalize() returns Err(Norm2IsZero) exactly for the zero vector; otherwise Ok(u) with norm2(u)=1 and v = u*norm2(v).", "quantifier": "all sizes 2..6, all real vectors", "why_tests_cant": "Unit length of the result must hold for every direction and magnitude.", "anchors": ["src/vector2.rs:normalize", "src/vector3.rs:normalize", "src/vector4.rs:normalize", "src/vector5.rs:normalize", "src/vector6.rs:normalize", "src/errors.rs:VectorErrors"]}
{"id": "C16", "title": "Vector space laws", "statement": "+ - unary - and multiplication/division by constants make V2..V6 a module: associativity, commutativity, zeros(), inverses, distributivity, (v*a)*b = v*(a*b), v/c = v*(1/c); += and -= agree with + and -; float-on-the-left products agree with float-on-the-right.", "quantifier": "all sizes 2..6, all vectors and scalars over every commutative ring (division: every field)", "why_tests_cant": "The entries range over an infinite (or 2^(32*n^2)) set; a test fixes a handful of matrices and a wrong sign/index can hide in entries that are zero or equal in the sample.", "anchors": ["src/vector2.rs:Add", "src/vector2.rs:Sub", "src/vector2.rs:Neg", "src/vector2.rs:Mul<T>", "src/vector2.rs:Div<T>", "src/vector2.rs:AddAssign", "src/vector2.rs:SubAssign", "src/vector2.rs:Zero", "src/vector3.rs:Add", "src/vector3.rs:Sub", "src/vector3.rs:Neg", "src/vector3.rs:Mul<T>", "src/vector3.rs:Div<T>", "src/vector3.rs:AddAssign", "src/vector3.rs:SubAssign", "src/vector3.rs:Zero", "src/vector4.rs:Add", "src/vector4.rs:Sub", "src/vector4.rs:Neg", "src/vector4.rs:Mul<T>", "src/vector4.rs:Div<T>", "src/vector4.rs:AddAssign", "src/vector4.rs:SubAssign", "src/vector4.rs:Zero", "src/vector5.rs:Add", "src/vector5.rs:Sub", "src/vector5.rs:Neg", "src/vector5.rs:Mul<T>", "src/vector5.rs:Div<T>", "src/vector5.rs:AddAssign", "src/vector5.rs:SubAssign", "src/vector5.rs:Zero", "src/vector6.rs:Add", "src/vector6.rs:Sub", "src/vector6.rs:Neg", "src/vector6.rs:Mul<T>", "src/vector6.rs:Div<T>", "src/vector6.rs:AddAssign", "src/vector6.rs:SubAssign", "src/vector6.rs:Zero"]}
{"id": "C17", "title": "Cross product", "statement": "a.cross(b) is bilinear, antisymmetric, orthogonal to both arguments, satisfies the Jacobi identity, the Lagrange identity |a×b|^2=|a|^2|b|^2-(a·b)^2 and the triple product a·(b×c) = det[a b c]; x_axis×y_axis=z_axis.", "quantifier": "all V3 over every commutative ring", "why_tests_cant": "The entries range over an infinite (or 2^(32*n^2)) set; a test fixes a handful of matrices and a wrong sign/index can hide in entries that are zero or equal in the sample.", "anchors": ["src/vector3.rs:cross", "src/vector3.rs:x_axis", "src/vector3.rs:y_axis", "src/vector3.rs:z_axis"]}
{"id": "C18", "title": "norm_inf is the infinity norm", "statement": "norm_inf() of a vector is the largest absolute value of its components (so it is non-negative and symmetric under negation).", "quantifier": "all sizes 2..6, all vectors", "why_tests_cant": "Tests use vectors whose largest component is positive.", "anchors": ["src/slices_methods.rs:norm_inf", "src/vector2.rs:norm_inf", "src/vector3.rs:norm_inf", "src/vector4.rs:norm_inf", "src/vector5.rs:norm_inf", "src/vector6.rs:norm_inf"]}
{"id": "C19", "title": "norm_l is the l1 norm", "statement": "norm_l() is the sum of the absolute values: >=0, zero only for zero, homogeneous, triangle inequality.", "quantifier": "all sizes 2..6 (and slices of any length), all real or integer vectors", "why_tests_cant": "The entries range over an infinite (or 2^(32*n^2)) set; a test fixes a handful of matrices and a wrong sign/index can hide in entries that are zero or equal in the sample.", "anchors": ["src/slices_methods.rs:norm_l", "src/vector2.rs:norm_l", "src/vector3.rs:norm_l", "src/vector4.rs:norm_l", "src/vector5.rs:norm_l", "src/vector6.rs:norm_l"]}
{"id": "C20", "title": "find_max_min", "statement": "For every non-empty slice of a totally ordered type, find_max_min returns a maximum and a minimum of the slice together with the index of their first occurrence; it panics exactly on the empty slice.", "quantifier": "all slices of any length over every linear order", "why_tests_cant": "Unbounded slice length and arbitrary ties.", "anchors": ["src/slices_methods.rs:find_max_min"]}
{"id": "C21", "title": "Row/column views", "statement": "as_vec lists the entries in row-major order; get_rows()[i][j] = m[(i,j)]; get_cols()[j][i] = m[(i,j)]; new_from_vecs(m.get_cols()) = m and new_from_vecs(m.get_rows()) = m.transpose().", "quantifier": "all sizes 2..6, all matrices over every element type", "why_tests_cant": "The entries range over an infinite (or 2^(32*n^2)) set; a test fixes a handful of matrices and a wrong sign/index can hide in entries that are zero or equal in the sample.", "anchors": ["src/matrix2x2.rs:as_vec", "src/matrix2x2.rs:get_rows", "src/matrix2x2.rs:get_cols", "src/matrix2x2.rs:new_from_vecs", "src/matrix3x3.rs:as_vec", "src/matrix3x3.rs:get_rows", "src/matrix3x3.rs:get_cols", "src/matrix3x3.rs:new_from_vecs", "src/matrix4x4.rs:as_vec", "src/matrix4x4.rs:get_rows", "src/matrix4x4.rs:get_cols", "src/matrix4x4.rs:new_from_vecs", "src/matrix5x5.rs:as_vec", "src/matrix5x5.rs:get_rows", "src/matrix5x5.rs:get_cols", "src/matrix5x5.rs:new_from_vecs", "src/matrix6x6.rs:as_vec", "src/matrix6x6.rs:get_rows", "src/matrix6x6.rs:get_cols", "src/matrix6x6.rs:new_from_vecs"]}
{"id": "C22", "title": "Diagonal and triangular extraction", "statement": "get_diagonal / get_upper_triangular / get_lower_triangular return exactly the entries with i=j / i<j / i>j, each once, in row-major order, and together they determine the matrix.", "quantifier": "all sizes 2..6 (triangles: 3..6), all matrices over every element type", "why_tests_cant": "The entries range over an infinite (or 2^(32*n^2)) set; a test fixes a handful of matrices and a wrong sign/index can hide in entries that are zero or equal in the sample.", "anchors": ["src/matrix2x2.rs:get_diagonal", "src/matrix3x3.rs:get_diagonal", "src/matrix3x3.rs:get_upper_triagular", "src/matrix3x3.rs:get_lower_triangular", "src/matrix4x4.rs:get_diagonal", "src/matrix4x4.rs:get_upper_triagular", "src/matrix4x4.rs:get_lower_triangular", "src/matrix5x5.rs:get_diagonal", "src/matrix5x5.rs:get_upper_triagular", "src/matrix5x5.rs:get_lower_triangular", "src/matrix6x6.rs:get_diagonal", "src/matrix6x6.rs:get_upper_triangular", "src/matrix6x6.rs:get_lower_triangular"]}
{"id": "C23", "title": "Submatrix", "statement": "M44::get_submatrix((i,j)) is the matrix with row i and column j removed when i,j<4 (this is what the cofactors of inverse use, also for 5x5 and 6x6), and panics when either index is out of range.", "quantifier": "all matrices over every element type, all pairs of usize", "why_tests_cant": "All pairs of indices and all matrices; panics for unbounded index values.", "anchors": ["src/matrix4x4.rs:get_submatrix", "src/matrix5x5.rs:get_submatrix", "src/matrix6x6.rs:get_submatrix"]}
{"id": "C24", "title": "for_each maps every entry", "statement": "m.for_each(f) has entry f(m[(i,j)]) at (i,j); for_each of the identity function is the identity and for_each composes.", "quantifier": "all sizes 2..6, all matrices over every type, all functions f", "why_tests_cant": "Quantifies over all functions.", "anchors": ["src/matrix2x2.rs:for_each", "src/matrix3x3.rs:for_each", "src/matrix4x4.rs:for_each", "src/matrix5x5.rs:for_each", "src/matrix6x6.rs:for_each"]}
{"id": "C25", "title": "Indexing", "statement": "m[(i,j)] and m[i][j] agree; reading after writing (i,j) gives the written value there and the old value everywhere else; access panics exactly when i or j is >= n.", "quantifier": "all sizes, all matrices over every type, all usize index pairs", "why_tests_cant": "Unbounded index values.", "anchors": ["src/matrix2x2.rs:Index", "src/matrix2x2.rs:IndexMut", "src/matrix3x3.rs:Index", "src/matrix3x3.rs:IndexMut", "src/matrix4x4.rs:Index", "src/matrix4x4.rs:IndexMut", "src/matrix5x5.rs:Index", "src/matrix5x5.rs:IndexMut", "src/matrix6x6.rs:Index", "src/matrix6x6.rs:IndexMut"]}
{"id": "C26", "title": "Scalar multiplication and division of matrices", "statement": "(A*c)[(i,j)] = A[(i,j)]*c, (A/c)[(i,j)] = A[(i,j)]/c, c*A = A*c for the float-on-the-left impls, (A*c)*B = (A*B)*c = A*(B*c), and (A/c)*c = A for c≠0.", "quantifier": "all sizes 2..6, all matrices and scalars over every commutative ring (division: every field)", "why_tests_cant": "The entries range over an infinite (or 2^(32*n^2)) set; a test fixes a handful of matrices and a wrong sign/index can hide in entries that are zero or equal in the sample.", "anchors": ["src/matrix2x2.rs:Mul<T>", "src/matrix2x2.rs:Div<T>", "src/matrix3x3.rs:Mul<T>", "src/matrix3x3.rs:Div<T>", "src/matrix4x4.rs:Mul<T>", "src/matrix4x4.rs:Div<T>", "src/matrix5x5.rs:Mul<T>", "src/matrix5x5.rs:Div<T>", "src/matrix6x6.rs:Mul<T>", "src/matrix6x6.rs:Div<T>"]}
{"id": "C27", "title": "copy_elements_from", "statement": "m.copy_elements_from(r,q) for q in 1..=4 writes r into quadrant q and leaves every other entry unchanged; it panics exactly when q is not in 1..=4.", "quantifier": "all M66, all M33, all usize q", "why_tests_cant": "Unbounded q and all contents.", "anchors": ["src/matrix6x6.rs:copy_elements_from"]}
{"id": "C28", "title": "LU factorisation", "statement": "For every invertible matrix, lu() returns without panicking (lu, det, indx) such that, with L the unit lower and U the upper triangle of lu and P the product of the recorded row swaps, L*U = P*A, and det equals A.det() (exact arithmetic).", "quantifier": "all sizes 2..6 (the proof covers every n>=1), all invertible real matrices", "why_tests_cant": "Pivoting branches depend on the data; a test visits a few pivot orders.", "anchors": ["src/matrix2x2.rs:lu", "src/matrix3x3.rs:lu", "src/matrix4x4.rs:lu", "src/matrix5x5.rs:lu", "src/matrix6x6.rs:lu"]}
{"id": "C29", "title": "LU panics only for the zero matrix", "statement": "lu() panics ('the matrix should be non zero') only when the matrix is zero.", "quantifier": "all sizes 2..6, all real matrices", "why_tests_cant": "Needs a matrix whose first row vanishes; the panic condition is over all matrices.", "anchors": ["src/matrix2x2.rs:lu", "src/matrix3x3.rs:lu", "src/matrix4x4.rs:lu", "src/matrix5x5.rs:lu", "src/matrix6x6.rs:lu"]}
{"id": "C30", "title": "LU of a singular matrix reports determinant zero", "statement": "For a singular matrix on which lu() returns, the returned determinant is 0.", "quantifier": "all sizes 2..6, all singular real matrices on which lu returns", "why_tests_cant": "Singular matrices have measure zero and the error is tiny, below test tolerances.", "anchors": ["src/matrix2x2.rs:lu", "src/matrix3x3.rs:lu", "src/matrix4x4.rs:lu", "src/matrix5x5.rs:lu", "src/matrix6x6.rs:lu"]}
{"id": "C31", "title": "LU pivot record", "statement": "Each indx[k] returned by lu() satisfies k <= indx[k] < n, so replaying the swaps is a permutation of the rows.", "quantifier": "all sizes, all real matrices on which lu returns", "why_tests_cant": "Over all pivot patterns.", "anchors": ["src/matrix2x2.rs:lu", "src/matrix3x3.rs:lu", "src/matrix4x4.rs:lu", "src/matrix5x5.rs:lu", "src/matrix6x6.rs:lu"]}
{"id": "C32", "title": "QR factorisation", "statement": "qr() returns None exactly when |det| < EPSILON; otherwise Some((Q,R)) with Q^T*Q = identity, Q*R = A and R upper triangular with positive diagonal (exact arithmetic).", "quantifier": "all sizes 2..6 (the proof covers every n), all real matrices", "why_tests_cant": "Orthogonality must hold for every matrix, not the sampled ones.", "anchors": ["src/matrix2x2.rs:qr", "src/matrix3x3.rs:qr", "src/matrix4x4.rs:qr", "src/matrix5x5.rs:qr", "src/matrix6x6.rs:qr"]}
{"id": "C33", "title": "2x2 real eigenvalues", "statement": "real_eigenvals() returns None exactly when the matrix has no real eigenvalue; otherwise Some([l1,l2]) are exactly the eigenvalues with multiplicity: l1+l2=trace, l1*l2=det, l1>=l2, and x is an eigenvalue iff x=l1 or x=l2.", "quantifier": "all real 2x2 matrices", "why_tests_cant": "Discriminant boundary has measure zero.", "anchors": ["src/matrix2x2.rs:real_eigenvals"]}
{"id": "C34", "title": "nearly_equal is symmetric and reflexive", "statement": "nearly_equal(a,b,eps)=nearly_equal(b,a,eps) for all floats including NaN, infinities and signed zeros; nearly_equal(a,a,eps) is true exactly when a is not NaN; NaN is nearly equal to nothing.", "quantifier": "all triples of IEEE floats (every format)", "why_tests_cant": "2^96 or 2^192 triples including special values.", "anchors": ["src/utils.rs:nearly_equal"]}
{"id": "C35", "title": "nearly_equal tolerance", "statement": "Over exact arithmetic nearly_equal(a,b,eps) holds iff a=b, or one of them is zero and |a-b|<eps, or both are non-zero and |a-b| < eps*min(|a|+|b|,MAX); it is invariant under joint scaling away from zero and MAX.", "quantifier": "all reals a,b,eps", "why_tests_cant": "Boundary of the tolerance for all inputs.", "anchors": ["src/utils.rs:nearly_equal"]}
{"id": "C36", "title": "nearly_equal treats tiny values absolutely", "statement": "When both arguments are extremely close to zero (as the comment in the code says), the comparison is absolute: |a|+|b| below the smallest positive normal implies nearly_equal(a,b,eps) iff |a-b|<eps.", "quantifier": "all pairs of tiny floats", "why_tests_cant": "The tested values are ordinary magnitudes; the branch is unreachable.", "anchors": ["src/utils.rs:nearly_equal"]}
{"id": "C37", "title": "nearly_zero", "statement": "nearly_zero(a) holds exactly when |a| < EPSILON (false for NaN and infinities).", "quantifier": "all floats", "why_tests_cant": "All bit patterns.", "anchors": ["src/utils.rs:nearly_zero"]}
{"id": "C38", "title": "compare_vecs compares whole vectors", "statement": "compare_vecs(v,w,eps) is true exactly when v and w have the same length and are component-wise nearly equal.", "quantifier": "all pairs of slices of any lengths", "why_tests_cant": "Unbounded lengths; tests compare equal-length vectors.", "anchors": ["src/utils.rs:compare_vecs"]}
{"id": "C39", "title": "is_rotation recognises rotations", "statement": "is_rotation(r) is true for every rotation matrix and false for matrices that are not (near) rotations.", "quantifier": "all real 3x3 (and is_rotation_h 4x4) matrices", "why_tests_cant": "Non-rotations with determinant one are a thin set that tests do not sample.", "anchors": ["src/utils.rs:is_rotation", "src/utils.rs:is_rotation_h"]}
{"id": "C40", "title": "Slice dot, norm2, normalize, projection", "statement": "dot panics exactly on different lengths and otherwise is the sum of products; norm2 is the Euclidean norm; normalize of a non-zero slice yields a unit slice with the same direction; x minus its projection on y is orthogonal to y≠0.", "quantifier": "all slices of any length over the reals", "why_tests_cant": "Unbounded lengths.", "anchors": ["src/slices_methods.rs:dot", "src/slices_methods.rs:norm2", "src/slices_methods.rs:normalize", "src/slices_methods.rs:project_x_over_y"]}
{"id": "C41", "title": "Quaternion arithmetic is Hamilton's", "statement": "+,-,unary -,*,multiplication/division by a scalar, conj, abs2, zero and one of Quaternion agree component-wise with Hamilton's quaternion algebra.", "quantifier": "all quaternions over every commutative ring", "why_tests_cant": "The entries range over an infinite (or 2^(32*n^2)) set; a test fixes a handful of matrices and a wrong sign/index can hide in entries that are zero or equal in the sample.", "anchors": ["src/quaternion.rs:Add", "src/quaternion.rs:Sub", "src/quaternion.rs:Neg", "src/quaternion.rs:Mul", "src/quaternion.rs:Mul<T>", "src/quaternion.rs:Div<T>", "src/quaternion.rs:conj", "src/quaternion.rs:abs2", "src/quaternion.rs:one", "src/quaternion.rs:zero"]}
{"id": "C42", "title": "Quaternion norm is multiplicative", "statement": "abs2(p*q)=abs2(p)*abs2(q), conj(p*q)=conj(q)*conj(p) component-wise, q*conj(q) is the real quaternion abs2(q), dot(q,q)=abs2(q), norm2(p*q)=norm2(p)*norm2(q).", "quantifier": "all quaternions (abs2: every commutative ring; norm2: reals)", "why_tests_cant": "The entries range over an infinite (or 2^(32*n^2)) set; a test fixes a handful of matrices and a wrong sign/index can hide in entries that are zero or equal in the sample.", "anchors": ["src/quaternion.rs:abs2", "src/quaternion.rs:conj", "src/quaternion.rs:norm2", "src/quaternion.rs:dot"]}
{"id": "C43", "title": "Quaternion == is numeric equality", "statement": "Two quaternions with the same four components compare equal; in particular q*Quaternion::one() == q and one()*one() == one().", "quantifier": "all quaternions", "why_tests_cant": "The hidden flag differs only for values built by particular constructors; tests compare components.", "anchors": ["src/quaternion.rs:pub struct Quaternion", "src/quaternion.rs:Mul", "src/quaternion.rs:one"]}
{"id": "C44", "title": "The normalized flag is truthful", "statement": "Every quaternion whose construction through the public API sets the normalized flag has norm 1.", "quantifier": "all inputs of every flag-setting constructor/method", "why_tests_cant": "Infinite family of inputs; a wrong flag is only visible through later calls.", "anchors": ["src/quaternion.rs:one", "src/quaternion.rs:rotation", "src/quaternion.rs:rotation_norm_encoded", "src/quaternion.rs:from_euler_angles", "src/quaternion.rs:normalize", "src/quaternion.rs:normalize_q", "src/quaternion.rs:exp"]}
{"id": "C45", "title": "Quaternion inverse and division", "statement": "inverse() returns None exactly when the quaternion is not flagged and abs2 < EPSILON; Some(p) satisfies q*p = p*q = 1 component-wise whenever q's flag is truthful; a/b panics exactly when b.inverse() is None and otherwise (a/b)*b = a component-wise.", "quantifier": "all real quaternions", "why_tests_cant": "The entries range over an infinite (or 2^(32*n^2)) set; a test fixes a handful of matrices and a wrong sign/index can hide in entries that are zero or equal in the sample.", "anchors": ["src/quaternion.rs:inverse", "src/quaternion.rs:Div"]}
{"id": "C46", "title": "Quaternion normalize", "statement": "normalize() of an unflagged quaternion is None exactly when norm2 < EPSILON, otherwise a unit quaternion that is a positive multiple of the input; normalize is idempotent.", "quantifier": "all real quaternions", "why_tests_cant": "The entries range over an infinite (or 2^(32*n^2)) set; a test fixes a handful of matrices and a wrong sign/index can hide in entries that are zero or equal in the sample.", "anchors": ["src/quaternion.rs:normalize"]}
{"id": "C47", "title": "q*v is the sandwich product and an isometry", "statement": "For a unit quaternion, q*v equals imag(q v conj(q)), preserves dot products and cross products (a proper rotation), composes ((p*q)*v = p*(q*v)), is undone by the conjugate, and agrees with q.to_rotation()*v.", "quantifier": "all unit quaternions and all vectors over every commutative ring", "why_tests_cant": "Rotations form a continuum.", "anchors": ["src/quaternion.rs:Mul<V3<T>> for Quaternion<T>", "src/quaternion.rs:to_rotation"]}
{"id": "C48", "title": "to_rotation is a homomorphism into SO(3)", "statement": "For unit q, to_rotation(q) is orthogonal with determinant 1; to_rotation(p*q)=to_rotation(p)*to_rotation(q); to_rotation(conj q) is the transpose; to_rotation(p)=to_rotation(q) exactly when p=±q component-wise.", "quantifier": "all (unit) quaternions", "why_tests_cant": "The entries range over an infinite (or 2^(32*n^2)) set; a test fixes a handful of matrices and a wrong sign/index can hide in entries that are zero or equal in the sample.", "anchors": ["src/quaternion.rs:to_rotation"]}
{"id": "C49", "title": "from_rotation inverts to_rotation", "statement": "For every rotation matrix R, from_rotation(R) has norm 1 and to_rotation(from_rotation(R)) = R (exact arithmetic, all four branches).", "quantifier": "all R in SO(3)", "why_tests_cant": "Four data-dependent branches; the boundaries between them are measure-zero.", "anchors": ["src/quaternion.rs:from_rotation", "src/quaternion.rs:to_rotation"]}
{"id": "C50", "title": "from_rotation recovers the quaternion up to sign", "statement": "from_rotation(to_rotation(q)) is q or -q component-wise for every unit q.", "quantifier": "all unit quaternions", "why_tests_cant": "Four data-dependent branches.", "anchors": ["src/quaternion.rs:from_rotation", "src/quaternion.rs:to_rotation"]}
{"id": "C51", "title": "Quaternion::rotation", "statement": "rotation(theta,v) panics exactly for v=0; otherwise it is a unit quaternion, fixes v, is the same rotation as the Rodrigues matrix of (theta, v/|v|), and rotation(a,v)*rotation(b,v) = rotation(a+b,v) component-wise; rotation_norm_encoded(v) equals rotation(|v|,v) when |v|>=EPSILON and the identity otherwise.", "quantifier": "all reals theta, all vectors", "why_tests_cant": "The entries range over an infinite (or 2^(32*n^2)) set; a test fixes a handful of matrices and a wrong sign/index can hide in entries that are zero or equal in the sample.", "anchors": ["src/quaternion.rs:rotation", "src/quaternion.rs:rotation_norm_encoded", "src/transformations.rs:rotation_from_axis_angle"]}
{"id": "C52", "title": "Axis-angle extraction", "statement": "For a unit quaternion with |imag|>EPSILON, get_axis() is Some unit vector u and rotation(get_angle(), u) reproduces q; get_axis() is None exactly when the sine of half the angle is at most EPSILON.", "quantifier": "all unit quaternions", "why_tests_cant": "All rotations including angles beyond π.", "anchors": ["src/quaternion.rs:get_angle", "src/quaternion.rs:get_axis", "src/quaternion.rs:axis_angle"]}
{"id": "C53", "title": "Euler angles to quaternion", "statement": "from_euler_angles(yaw,pitch,roll) is a unit quaternion and its to_rotation() equals euler_to_rotation(yaw,pitch,roll,None) = rotz(yaw)*roty(pitch)*rotx(roll).", "quantifier": "all real angle triples", "why_tests_cant": "All angles.", "anchors": ["src/quaternion.rs:from_euler_angles", "src/transformations.rs:euler_to_rotation"]}
{"id": "C54", "title": "rotation_to_euler round trip", "statement": "For every rotation matrix R, euler_to_rotation(rotation_to_euler(R), None) = R, including gimbal lock; likewise to_euler_angles of a unit quaternion.", "quantifier": "all R in SO(3)", "why_tests_cant": "Gimbal lock and its epsilon neighbourhood are thin sets.", "anchors": ["src/transformations.rs:rotation_to_euler", "src/quaternion.rs:to_euler_angles"]}
{"id": "C55", "title": "Quaternion exp is the exponential", "statement": "q.exp() equals the quaternion exponential series (exactly when the imaginary norm is 0 or > EPSILON, and within a bound of order EPSILON otherwise).", "quantifier": "all real quaternions", "why_tests_cant": "Transcendental identity over a continuum.", "anchors": ["src/quaternion.rs:exp"]}
{"id": "C56", "title": "exp and ln are inverse", "statement": "For q≠0 (unflagged or truthfully flagged) whose direction has imaginary norm 0 or > EPSILON, exp(ln(q)) = q component-wise.", "quantifier": "all such real quaternions", "why_tests_cant": "Continuum, incl. negative reals.", "anchors": ["src/quaternion.rs:exp", "src/quaternion.rs:ln"]}
{"id": "C57", "title": "Quaternion sqrt", "statement": "sqrt(q)*sqrt(q) = q component-wise, with non-negative real part (principal root), for q≠0 (unflagged or truthfully flagged) whose direction has imaginary norm 0 or > 2*EPSILON.", "quantifier": "all such real quaternions", "why_tests_cant": "Continuum.", "anchors": ["src/quaternion.rs:sqrt"]}
{"id": "C58", "title": "slerp", "statement": "For unit a,b and t in [0,1], slerp(a,b,t) is a unit quaternion, slerp(a,b,0)=a, slerp(a,b,1)=±b, and it turns at constant rate along the shorter arc: the angle to a is t times the angle between a and ±b.", "quantifier": "all unit quaternion pairs, all t in [0,1]", "why_tests_cant": "Near-parallel and opposite quaternions are thin sets; tests use generic pairs.", "anchors": ["src/quaternion.rs:slerp"]}
{"id": "C59", "title": "Quaternion derivative", "statement": "q.derivative(w) is the time derivative at 0 of (rotation by angle |w|t about w) applied to q, and is orthogonal to q (norm preserving).", "quantifier": "all real quaternions and angular rates", "why_tests_cant": "Statement about a limit.", "anchors": ["src/quaternion.rs:derivative"]}
{"id": "C60", "title": "Dual quaternion arithmetic", "statement": "+,-,unary -,*,scalar * of DualQuaternion and its three conjugations agree component-wise with dual numbers over Hamilton's quaternions (ε^2=0); conj reverses products.", "quantifier": "all dual quaternions over every commutative ring", "why_tests_cant": "The entries range over an infinite (or 2^(32*n^2)) set; a test fixes a handful of matrices and a wrong sign/index can hide in entries that are zero or equal in the sample.", "anchors": ["src/dual_quaternion.rs:Add", "src/dual_quaternion.rs:Sub", "src/dual_quaternion.rs:Neg", "src/dual_quaternion.rs:Mul", "src/dual_quaternion.rs:Mul<T>", "src/dual_quaternion.rs:conj", "src/dual_quaternion.rs:conj_as_dual", "src/dual_quaternion.rs:conj_combined"]}
{"id": "C61", "title": "Rotation+translation acts as a rigid motion", "statement": "For unit q, transform_point(new_from_rot_trans(q,t), p) = q.to_rotation()*p + t, get_translation gives back t and the real part gives back q; new_from_translation(t) translates by t; new_from_rotation(q) rotates.", "quantifier": "all unit quaternions, translations and points", "why_tests_cant": "Continuum.", "anchors": ["src/dual_quaternion.rs:new_from_rot_trans", "src/dual_quaternion.rs:transform_point", "src/dual_quaternion.rs:get_translation", "src/dual_quaternion.rs:new_from_translation", "src/dual_quaternion.rs:new_from_rotation"]}
{"id": "C62", "title": "Dual quaternion product composes motions", "statement": "For unit dual quaternions a,b: transform_point(a*b,p)=transform_point(a,transform_point(b,p)), to_homogeneous(a*b)=to_homogeneous(a)*to_homogeneous(b), and transform_point(a,p) is to_homogeneous(a) applied to (p,1).", "quantifier": "all unit dual quaternions and points", "why_tests_cant": "Continuum.", "anchors": ["src/dual_quaternion.rs:Mul", "src/dual_quaternion.rs:transform_point", "src/dual_quaternion.rs:to_homogeneous"]}
{"id": "C63", "title": "Homogeneous matrix round trip", "statement": "to_homogeneous(new_from_homogeneous(H)) = H for every rigid transformation H, without panicking; new_from_rotation_matrix(R) represents R.", "quantifier": "all H in SE(3)", "why_tests_cant": "Continuum; four branches.", "anchors": ["src/dual_quaternion.rs:new_from_homogeneous", "src/dual_quaternion.rs:to_homogeneous", "src/dual_quaternion.rs:new_from_rotation_matrix"]}
{"id": "C64", "title": "Dual quaternion inverse", "statement": "For every dual quaternion with real part not (nearly) zero built through the API, x*x.inverse() = x.inverse()*x = one component-wise.", "quantifier": "all dual quaternions built by the public constructors", "why_tests_cant": "A wrong flag makes inverse return the conjugate; tests invert unit values only.", "anchors": ["src/dual_quaternion.rs:inverse", "src/dual_quaternion.rs:new_from_rotation", "src/dual_quaternion.rs:normalize"]}
{"id": "C65", "title": "Dual quaternion normalize", "statement": "normalize() returns None exactly when unflagged with norm of the real part < EPSILON; otherwise a unit dual quaternion (real part of norm 1 and orthogonal to the dual part).", "quantifier": "all dual quaternions", "why_tests_cant": "Orthogonality of the parts holds for test data that already represent motions.", "anchors": ["src/dual_quaternion.rs:normalize"]}
{"id": "C66", "title": "Dual quaternion division", "statement": "(a*b)/b = a for every b with invertible real part, and a/a = 1.", "quantifier": "all dual quaternions", "why_tests_cant": "Non-commuting arguments only.", "anchors": ["src/dual_quaternion.rs:Div"]}
{"id": "C67", "title": "Dual quaternion pow", "statement": "For unit x and real s: x.pow(1)=x, pow(0)=1, pow(s) is the motion with the same screw axis and s times the angle and displacement; in particular x.pow(2)=x*x.", "quantifier": "all unit dual quaternions and real exponents", "why_tests_cant": "Pure translations are a thin set.", "anchors": ["src/dual_quaternion.rs:pow"]}
{"id": "C68", "title": "Screw parameters round trip", "statement": "For unit x that is not a pure translation (angle ≥ EPSILON, < 2π), new_from_screw_parameters(get_screw_parameters(x)) = x component-wise; the axis l is unit and m is orthogonal to l; conversely from valid (l,m,theta,d).", "quantifier": "all unit dual quaternions / all valid screw parameters", "why_tests_cant": "Continuum.", "anchors": ["src/dual_quaternion.rs:get_screw_parameters", "src/dual_quaternion.rs:new_from_screw_parameters"]}
{"id": "C69", "title": "screw_lerp end points", "statement": "screw_lerp(a,b,0) and screw_lerp(a,b,1) represent the same rigid motions as a and b.", "quantifier": "all unit dual quaternions", "why_tests_cant": "The sign-flip branch is entered only for particular relative orientations.", "anchors": ["src/dual_quaternion.rs:screw_lerp"]}
{"id": "C70", "title": "is_normalized is truthful", "statement": "is_normalized() is false for dual quaternions whose real part does not have norm (nearly) 1.", "quantifier": "all dual quaternions", "why_tests_cant": "Zero real part.", "anchors": ["src/dual_quaternion.rs:is_normalized"]}
{"id": "C71", "title": "Dual quaternion log is total on unit values", "statement": "log() returns None exactly for unflagged values and does not panic for flagged unit dual quaternions.", "quantifier": "all flagged unit dual quaternions", "why_tests_cant": "Identity and pure translations are a thin set.", "anchors": ["src/dual_quaternion.rs:log"]}
{"id": "C72", "title": "Elementary rotations", "statement": "rot2, rotx, roty, rotz produce proper rotations, are additive in the angle (r(a)*r(b)=r(a+b)), r(0)=identity, r(-a)=transpose, fix their axis and turn the next axis by the right-hand rule.", "quantifier": "all real angles", "why_tests_cant": "Continuum.", "anchors": ["src/transformations.rs:rot2", "src/transformations.rs:rotx", "src/transformations.rs:roty", "src/transformations.rs:rotz"]}
{"id": "C73", "title": "euler_to_rotation follows the named sequence", "statement": "For every sequence ABC, euler_to_rotation(y,p,r,Some(ABC)) = rotA(y)*rotB(p)*rotC(r) (None means ZYX), always a proper rotation.", "quantifier": "all ten sequences and None, all real angles", "why_tests_cant": "Needs angles for which two sequences differ, for each sequence.", "anchors": ["src/transformations.rs:euler_to_rotation", "src/transformations.rs:EulerSeq"]}
{"id": "C74", "title": "Homogeneous transforms", "statement": "homogeneous_from_rotation(r,p) and get_parts_raw are mutually inverse, products compose: H(r1,p1)*H(r2,p2)=H(r1*r2, r1*p2+p1), and H(r,p)*(x,1)=(r*x+p,1); homogeneous_from_quaternion uses the quaternion's rotation matrix; se3_from_parts/se3_get_parts are mutually inverse.", "quantifier": "all matrices and vectors over the reals", "why_tests_cant": "The entries range over an infinite (or 2^(32*n^2)) set; a test fixes a handful of matrices and a wrong sign/index can hide in entries that are zero or equal in the sample.", "anchors": ["src/transformations.rs:homogeneous_from_rotation", "src/transformations.rs:get_parts_raw", "src/transformations.rs:homogeneous_from_quaternion", "src/transformations.rs:se3_from_parts", "src/transformations.rs:se3_get_parts"]}
{"id": "C75", "title": "homogeneous_inverse", "statement": "homogeneous_inverse(H) is the two-sided inverse of every rigid transformation H and agrees with the general M44 inverse.", "quantifier": "all H in SE(3)", "why_tests_cant": "Continuum.", "anchors": ["src/transformations.rs:homogeneous_inverse", "src/matrix4x4.rs:inverse"]}
{"id": "C76", "title": "homogeneous_inverse_transform", "statement": "homogeneous_inverse_transform(H,p) is the unique point that H maps to p.", "quantifier": "all H in SE(3), all points", "why_tests_cant": "Continuum.", "anchors": ["src/transformations.rs:homogeneous_inverse_transform"]}
{"id": "C77", "title": "so(3) hat and vee", "statement": "skew_from_vec(v)*w = v.cross(w), is antisymmetric, skew_to_vec inverts it on all vectors and on all antisymmetric matrices; skew_scalar/vex_m22 and skew_v6/skew_from_vec_aug have the documented structure.", "quantifier": "all vectors over the reals", "why_tests_cant": "The entries range over an infinite (or 2^(32*n^2)) set; a test fixes a handful of matrices and a wrong sign/index can hide in entries that are zero or equal in the sample.", "anchors": ["src/transformations.rs:skew_from_vec", "src/transformations.rs:skew_to_vec", "src/transformations.rs:skew_scalar", "src/transformations.rs:vex_m22", "src/transformations.rs:skew_v6", "src/transformations.rs:skew_from_vec_aug"]}
{"id": "C78", "title": "Rodrigues formula", "statement": "For a unit axis, rotation_from_axis_angle(w,theta) is a proper rotation, fixes w, is additive in theta, and equals the matrix exponential series of theta*skew(w).", "quantifier": "all unit vectors, all real angles", "why_tests_cant": "Transcendental identity over a continuum.", "anchors": ["src/transformations.rs:rotation_from_axis_angle"]}
{"id": "C79", "title": "matrix_exponential", "statement": "For every antisymmetric S whose vector norm is 0 or >= EPSILON, matrix_exponential(S) equals the exponential series of S and is a proper rotation; below EPSILON it returns the identity.", "quantifier": "all antisymmetric 3x3 real matrices", "why_tests_cant": "Transcendental identity over a continuum.", "anchors": ["src/transformations.rs:matrix_exponential"]}
{"id": "C80", "title": "matrix_log", "statement": "For every rotation matrix R, matrix_exponential(matrix_log(R)) = R and matrix_log(R) is antisymmetric.", "quantifier": "all R in SO(3)", "why_tests_cant": "Half-turns are a thin set with three branches.", "anchors": ["src/transformations.rs:matrix_log", "src/transformations.rs:matrix_exponential"]}
{"id": "C81", "title": "matrix_exponential6", "statement": "For every twist matrix in se(3), matrix_exponential6 is a rigid transformation and equals the exponential series.", "quantifier": "all se(3) matrices", "why_tests_cant": "Pure translations are a thin set.", "anchors": ["src/transformations.rs:matrix_exponential6"]}
{"id": "C82", "title": "matrix_log6", "statement": "matrix_exponential6(matrix_log6(H)) = H for every rigid H.", "quantifier": "all H in SE(3)", "why_tests_cant": "Pure translations and half-turns are thin sets.", "anchors": ["src/transformations.rs:matrix_log6", "src/transformations.rs:matrix_exponential6"]}
{"id": "C83", "title": "Adjoint map", "statement": "adjoint(H1*H2)=adjoint(H1)*adjoint(H2), adjoint(identity)=identity, adjoint(H)*adjoint(homogeneous_inverse(H))=identity, and H*[V]*H^{-1} = [adjoint(H)*V] where [V]=twist_to_se3(V).", "quantifier": "all H in SE(3), all twists", "why_tests_cant": "Continuum.", "anchors": ["src/transformations.rs:adjoint", "src/transformations.rs:twist_to_se3"]}
{"id": "C84", "title": "Twists and se(3)", "statement": "se3_to_twist(twist_to_se3(V)) = V for all V, and twist_to_se3(se3_to_twist(X)) = X for all X in se(3).", "quantifier": "all twists / se(3) matrices over the reals", "why_tests_cant": "The entries range over an infinite (or 2^(32*n^2)) set; a test fixes a handful of matrices and a wrong sign/index can hide in entries that are zero or equal in the sample.", "anchors": ["src/transformations.rs:twist_to_se3", "src/transformations.rs:se3_to_twist"]}
{"id": "C85", "title": "distance_to_manifold", "statement": "distance_to_manifold(m) is 0 exactly when m is a rotation matrix, is non-negative, and is infinite when det(m) <= 0.", "quantifier": "all real 3x3 matrices", "why_tests_cant": "Continuum.", "anchors": ["src/transformations.rs:distance_to_manifold"]}
{"id": "C86", "title": "Screw axis coordinates", "statement": "axis_angle6(V) = (S,theta) with S*theta = V, theta>0 and S normalised (unit rotation part, or zero-rotation and unit translation part) for every V≠0 whose rotation norm is 0 or >= EPSILON; axis_angle(w) panics exactly for w=0 and otherwise u*theta = w with |u|=1; screw_to_axis(q,s,h) contains s and the velocity -s×q+h*s.", "quantifier": "all twists / vectors", "why_tests_cant": "Continuum.", "anchors": ["src/transformations.rs:axis_angle6", "src/transformations.rs:axis_angle", "src/transformations.rs:screw_to_axis"]}
{"id": "C87", "title": "get_parts", "statement": "get_parts(H) returns a unit quaternion whose rotation matrix is the rotation part of H and the translation part of H.", "quantifier": "all H in SE(3)", "why_tests_cant": "Gimbal lock is a thin set.", "anchors": ["src/transformations.rs:get_parts"]}
{"id": "C88", "title": "Planar poses", "statement": "ksi(angle,x,y) = translation_2d(x,y) * rotation, composes as planar rigid motions, ksi(a,x,y) applied to (u,v,1) rotates by a then translates; translation_3d translates.", "quantifier": "all reals", "why_tests_cant": "Continuum.", "anchors": ["src/transformations.rs:ksi", "src/transformations.rs:translation_2d", "src/transformations.rs:translation_3d"]}
{"id": "C89", "title": "IEEE: multiplying by the identity is exact", "statement": "For floats, M*identity() == M, identity()*M == M and identity()*v == v whenever all entries are finite (no rounding error), and the result contains NaN when an entry is infinite or NaN.", "quantifier": "all sizes 2..6, all finite IEEE float matrices, every binary format", "why_tests_cant": "All bit patterns incl. signed zeros and subnormals.", "anchors": ["src/matrix2x2.rs:Mul", "src/matrix2x2.rs:identity", "src/matrix3x3.rs:Mul", "src/matrix3x3.rs:identity", "src/matrix4x4.rs:Mul", "src/matrix4x4.rs:identity", "src/matrix5x5.rs:Mul", "src/matrix5x5.rs:identity", "src/matrix6x6.rs:Mul", "src/matrix6x6.rs:identity"]}
{"id": "C90", "title": "IEEE: dot and element-wise ops are exactly symmetric", "statement": "In floating point (no real-arithmetic laws) v*w and w*v are bit-identical, as are a+b and b+a, transposition commutes exactly with +, -, scaling, and (A*B)^T equals B^T*A^T bit for bit for 2x2, 3x3, 5x5 and 6x6.", "quantifier": "all float inputs incl. NaN and infinities", "why_tests_cant": "All bit patterns; depends on the evaluation order chosen for each entry.", "anchors": ["src/vector2.rs:Mul for V2<T>", "src/vector3.rs:Mul for V3<T>", "src/vector4.rs:Mul for V4<T>", "src/vector5.rs:Mul for V5<T>", "src/vector6.rs:Mul for V6<T>", "src/matrix2x2.rs:Mul", "src/matrix2x2.rs:transpose", "src/matrix3x3.rs:Mul", "src/matrix3x3.rs:transpose", "src/matrix4x4.rs:Mul", "src/matrix4x4.rs:transpose", "src/matrix5x5.rs:Mul", "src/matrix5x5.rs:transpose", "src/matrix6x6.rs:Mul", "src/matrix6x6.rs:transpose"]}
{"id": "C91", "title": "IEEE: NaN is not reported as singular", "statement": "inverse() of a matrix whose determinant evaluates to NaN or ±infinity returns Some, never None; so None always means a finite determinant of magnitude below EPSILON.", "quantifier": "all sizes, all float matrices", "why_tests_cant": "Special values for every entry position.", "anchors": ["src/matrix2x2.rs:inverse", "src/matrix3x3.rs:inverse", "src/matrix4x4.rs:inverse", "src/matrix5x5.rs:inverse", "src/matrix6x6.rs:inverse"]}
{"id": "C92", "title": "IEEE: normalize on extreme magnitudes", "statement": "normalize() returns Err exactly when the computed norm is zero; this happens for some non-zero vectors (underflow), and overflow of the norm to infinity yields the zero vector instead of a unit vector.", "quantifier": "all float vectors", "why_tests_cant": "Extreme magnitudes.", "anchors": ["src/vector2.rs:normalize", "src/vector3.rs:normalize", "src/vector4.rs:normalize", "src/vector5.rs:normalize", "src/vector6.rs:normalize"]}
{"id": "C93", "title": "IEEE: forward error of dot products and matrix-vector products", "statement": "Without overflow/underflow, the computed dot product differs from the exact one by at most ((1+u)^n - 1) times the sum of |v_i*w_i|, u the unit roundoff; likewise each entry of matrix-vector and matrix-matrix products.", "quantifier": "all sizes 2..6, all float inputs in the normal range", "why_tests_cant": "Worst-case bound over all inputs.", "anchors": ["src/vector2.rs:Mul for V2<T>", "src/vector3.rs:Mul for V3<T>", "src/vector4.rs:Mul for V4<T>", "src/vector5.rs:Mul for V5<T>", "src/vector6.rs:Mul for V6<T>", "src/matrix2x2.rs:Mul", "src/matrix3x3.rs:Mul", "src/matrix4x4.rs:Mul", "src/matrix5x5.rs:Mul", "src/matrix6x6.rs:Mul"]}
{"id": "C94", "title": "Overflow-checked integers: no wrong answer without a panic", "statement": "With overflow-checked integer entries (debug build), if a sum, difference, matrix product, matrix-vector product or dot product returns at all, the value is the exact integer result (det is only available for floats).", "quantifier": "all sizes 2..6, all integer matrices of every width", "why_tests_cant": "All integer inputs and every intermediate overflow.", "anchors": ["src/matrix2x2.rs:Add", "src/matrix2x2.rs:Sub", "src/matrix2x2.rs:Mul", "src/matrix3x3.rs:Add", "src/matrix3x3.rs:Sub", "src/matrix3x3.rs:Mul", "src/matrix4x4.rs:Add", "src/matrix4x4.rs:Sub", "src/matrix4x4.rs:Mul", "src/matrix5x5.rs:Add", "src/matrix5x5.rs:Sub", "src/matrix5x5.rs:Mul", "src/matrix6x6.rs:Add", "src/matrix6x6.rs:Sub", "src/matrix6x6.rs:Mul", "src/vector2.rs:Mul for V2<T>", "src/vector3.rs:Mul for V3<T>", "src/vector4.rs:Mul for V4<T>", "src/vector5.rs:Mul for V5<T>", "src/vector6.rs:Mul for V6<T>"]}
{"id": "C95", "title": "Quaternion sine and cosine", "statement": "sin() never panics; for q=a+b*l with real part a=0 or |a|>EPSILON and imaginary norm b=0 or b^2>EPSILON (l the unit imaginary direction), sin(q)=sin(a)cosh(b)+cos(a)sinh(b)*l, cos(q)=cos(a)cosh(b)-sin(a)sinh(b)*l, and sin(q)^2+cos(q)^2=1 component-wise.", "quantifier": "all such real quaternions (no panic: all quaternions)", "why_tests_cant": "Transcendental identity over a continuum, with threshold branches.", "anchors": ["src/quaternion.rs:sin", "src/quaternion.rs:cos", "src/quaternion.rs:argq"]}
{"id": "C96", "title": "Quaternion powers", "statement": "q.pow(n) for a real natural number n is the n-fold product of q with itself, for q≠0 (unflagged or truthfully flagged) whose direction has imaginary norm 0 or > EPSILON.", "quantifier": "all such real quaternions, all naturals n", "why_tests_cant": "Unbounded exponent and a continuum of quaternions.", "anchors": ["src/quaternion.rs:pow", "src/quaternion.rs:ln", "src/quaternion.rs:exp"]}
{"id": "C97", "title": "== and is_zero are exact and element-wise", "statement": "Vectors and matrices compare equal exactly when every pair of elements does (so never when one is NaN); is_zero() says yes exactly when every element is zero, on floats for either sign of zero; for dual quaternions it says yes exactly when all eight components are zero.", "quantifier": "all sizes 2..6, all real and all IEEE float inputs", "why_tests_cant": "All inputs, every element position, NaN and signed zero.", "anchors": ["src/vector2.rs:PartialEq", "src/vector2.rs:is_zero", "src/vector3.rs:PartialEq", "src/vector3.rs:is_zero", "src/vector4.rs:PartialEq", "src/vector4.rs:is_zero", "src/vector5.rs:PartialEq", "src/vector5.rs:is_zero", "src/vector6.rs:PartialEq", "src/vector6.rs:is_zero", "src/matrix2x2.rs:PartialEq", "src/matrix2x2.rs:is_zero", "src/matrix3x3.rs:PartialEq", "src/matrix3x3.rs:is_zero", "src/matrix4x4.rs:PartialEq", "src/matrix4x4.rs:is_zero", "src/matrix5x5.rs:PartialEq", "src/matrix5x5.rs:is_zero", "src/matrix6x6.rs:PartialEq", "src/matrix6x6.rs:is_zero", "src/dual_quaternion.rs:is_zero", "src/quaternion.rs:is_zero"]}
{"id": "C98", "title": "Approximate comparisons of utils", "statement": "compare_floats(a,b,tol) says yes exactly when |a-b|<tol; check_elements(v,tol) exactly when some element of v is zero or smaller than tol in magnitude; compare_dual_quaternions exactly when all eight components are nearly equal (equal, or closer than tol times the sum of their magnitudes, or than tol itself when one is zero), so never with a NaN component.", "quantifier": "all real inputs and slices of every length; in IEEE floats all inputs of check_elements with a finite tolerance and, for the two comparisons, all operands with a NaN (their rounded answers are C125)", "why_tests_cant": "Unbounded slice lengths and all floats.", "anchors": ["src/utils.rs:compare_floats", "src/slices_methods.rs:check_elements", "src/utils.rs:compare_dual_quaternions"]}
{"id": "C99", "title": "rotation_inverse", "statement": "For a rotation matrix R, rotation_inverse(R) is a rotation, the two-sided inverse of R, undoes R on every vector, and is what the general inverse() returns.", "quantifier": "all R in SO(3), all vectors", "why_tests_cant": "Continuum.", "anchors": ["src/transformations.rs:rotation_inverse", "src/matrix3x3.rs:inverse"]}
{"id": "C100", "title": "Constructors, sizes and constants", "statement": "Every constructor, From impl and mNN_new! macro puts each component where indexing finds it (row-major), rows(), cols() and shape() are the bounds of indexing, identity(), zeros(), ones() and the axis constants have the entries their names say, and quaternion constructors use the order real, i, j, k and set no flag.", "quantifier": "all sizes 2..6, every element type, all components and index values", "why_tests_cant": "Every position of every size, every index incl. out-of-range.", "anchors": ["src/vector2.rs:new", "src/vector2.rs:new_from", "src/vector2.rs:zeros", "src/vector2.rs:ones", "src/vector2.rs:From", "src/vector2.rs:Deref", "src/vector3.rs:new", "src/vector3.rs:new_from", "src/vector3.rs:zeros", "src/vector3.rs:ones", "src/vector3.rs:From", "src/vector3.rs:Deref", "src/vector4.rs:new", "src/vector4.rs:new_from", "src/vector4.rs:zeros", "src/vector4.rs:ones", "src/vector4.rs:From", "src/vector4.rs:Deref", "src/vector5.rs:new", "src/vector5.rs:new_from", "src/vector5.rs:zeros", "src/vector5.rs:ones", "src/vector5.rs:From", "src/vector5.rs:Deref", "src/vector6.rs:new", "src/vector6.rs:new_from", "src/vector6.rs:zeros", "src/vector6.rs:ones", "src/vector6.rs:From", "src/vector6.rs:Deref", "src/matrix2x2.rs:new", "src/matrix2x2.rs:from", "src/matrix2x2.rs:rows", "src/matrix2x2.rs:cols", "src/matrix2x2.rs:shape", "src/matrix2x2.rs:identity", "src/matrix2x2.rs:zeros", "src/matrix2x2.rs:Index", "src/matrix3x3.rs:new", "src/matrix3x3.rs:from", "src/matrix3x3.rs:rows", "src/matrix3x3.rs:cols", "src/matrix3x3.rs:shape", "src/matrix3x3.rs:identity", "src/matrix3x3.rs:zeros", "src/matrix3x3.rs:Index", "src/matrix4x4.rs:new", "src/matrix4x4.rs:from", "src/matrix4x4.rs:rows", "src/matrix4x4.rs:cols", "src/matrix4x4.rs:shape", "src/matrix4x4.rs:identity", "src/matrix4x4.rs:zeros", "src/matrix4x4.rs:Index", "src/matrix5x5.rs:new", "src/matrix5x5.rs:from", "src/matrix5x5.rs:rows", "src/matrix5x5.rs:cols", "src/matrix5x5.rs:shape", "src/matrix5x5.rs:identity", "src/matrix5x5.rs:zeros", "src/matrix5x5.rs:Index", "src/matrix6x6.rs:new", "src/matrix6x6.rs:from", "src/matrix6x6.rs:rows", "src/matrix6x6.rs:cols", "src/matrix6x6.rs:shape", "src/matrix6x6.rs:identity", "src/matrix6x6.rs:zeros", "src/matrix6x6.rs:Index", "src/quaternion.rs:new", "src/quaternion.rs:new_from", "src/quaternion.rs:new_from_vec"]}
{"id": "C101", "title": "Display writes the elements in order and nothing else", "statement": "Formatting a value writes its elements in order to the destination (matrices one |...| line per row) and has no other effect.", "quantifier": "all sizes 2..6, all element types and contents", "why_tests_cant": "Side effects on stdout are invisible to string comparison.", "anchors": ["src/vector2.rs:Display", "src/vector3.rs:Display", "src/vector4.rs:Display", "src/vector5.rs:Display", "src/vector6.rs:Display", "src/matrix2x2.rs:Display", "src/matrix3x3.rs:Display", "src/matrix4x4.rs:Display", "src/matrix5x5.rs:Display", "src/matrix6x6.rs:Display", "src/quaternion.rs:Display", "src/dual_quaternion.rs:Display"]}
{"id": "C102", "title": "IEEE: forward error of the determinant", "statement": "The computed determinant differs from the exact one by at most ((1+u)^d - 1) times the permanent of the absolute values of the entries plus an underflow term, where d is 2, 5, 26, 123, 724 for sizes 2..6.", "quantifier": "all sizes 2..6, all float matrices whose computed determinant is finite", "why_tests_cant": "Worst-case bound over all inputs; depends on the evaluation order of up to 720 terms.", "anchors": ["src/matrix2x2.rs:det", "src/matrix3x3.rs:det", "src/matrix4x4.rs:det", "src/matrix5x5.rs:det", "src/matrix6x6.rs:det"]}
{"id": "C103", "title": "IEEE: no overflow and no NaN within the stated range", "statement": "If all entries are finite and bounded by B >= 1, determinants, matrix products, matrix-vector products and dot products are finite (no infinity, no NaN) as long as (1+u)^d * c * B^n stays below the overflow threshold, with the stated small constants c.", "quantifier": "all sizes 2..6, all float inputs bounded by B", "why_tests_cant": "Every intermediate result of every input must be bounded.", "anchors": ["src/matrix2x2.rs:det", "src/matrix2x2.rs:Mul", "src/matrix3x3.rs:det", "src/matrix3x3.rs:Mul", "src/matrix4x4.rs:det", "src/matrix4x4.rs:Mul", "src/matrix5x5.rs:det", "src/matrix5x5.rs:Mul", "src/matrix6x6.rs:det", "src/matrix6x6.rs:Mul", "src/vector2.rs:Mul for V2<T>", "src/vector3.rs:Mul for V3<T>", "src/vector4.rs:Mul for V4<T>", "src/vector5.rs:Mul for V5<T>", "src/vector6.rs:Mul for V6<T>"]}
{"id": "C104", "title": "IEEE: exact on integer-valued floats", "statement": "On floats with integer values of magnitude at most K, sums, differences, dot products, matrix-vector and matrix products and determinants are exact, provided 2K, n*K^2, n!*K^n respectively do not exceed 2^p (p the number of mantissa bits).", "quantifier": "all sizes 2..6, all integer-valued float inputs", "why_tests_cant": "All integer inputs; one lost bit in any of up to 720 intermediate sums breaks it.", "anchors": ["src/matrix2x2.rs:det", "src/matrix2x2.rs:Add", "src/matrix2x2.rs:Sub", "src/matrix2x2.rs:Mul", "src/matrix3x3.rs:det", "src/matrix3x3.rs:Add", "src/matrix3x3.rs:Sub", "src/matrix3x3.rs:Mul", "src/matrix4x4.rs:det", "src/matrix4x4.rs:Add", "src/matrix4x4.rs:Sub", "src/matrix4x4.rs:Mul", "src/matrix5x5.rs:det", "src/matrix5x5.rs:Add", "src/matrix5x5.rs:Sub", "src/matrix5x5.rs:Mul", "src/matrix6x6.rs:det", "src/matrix6x6.rs:Add", "src/matrix6x6.rs:Sub", "src/matrix6x6.rs:Mul", "src/vector2.rs:Mul for V2<T>", "src/vector3.rs:Mul for V3<T>", "src/vector4.rs:Mul for V4<T>", "src/vector5.rs:Mul for V5<T>", "src/vector6.rs:Mul for V6<T>"]}
{"id": "C105", "title": "IEEE: quaternion rounding errors", "statement": "The computed quaternion product is within ((1+u)^4-1)|p||q| (plus underflow) of the Hamilton product in every component, its norm drifts from |p||q| by at most twice that, chains of n products drift at most geometrically; q*v and to_rotation() are within the stated bounds of v -> q v q*; integer quaternions multiply exactly.", "quantifier": "all float quaternions and vectors, chains of every length", "why_tests_cant": "Worst-case bound over all inputs and unbounded chains.", "anchors": ["src/quaternion.rs:Mul for Quaternion<T>", "src/quaternion.rs:Mul<V3<T>> for Quaternion<T>", "src/quaternion.rs:to_rotation", "src/vector3.rs:cross"]}
{"id": "C106", "title": "IEEE: accuracy of norm2 and normalize", "statement": "Barring overflow and underflow of the squares, norm2() has relative error at most (1+u)^(n+1)-1, and normalize() succeeds on nonzero input with every component within the stated bound of v/|v| and a norm within the stated bound of 1; likewise for quaternions of norm >= 2 EPSILON. If a quaternion's norm overflows, normalize() returns the zero quaternion flagged as normalized.", "quantifier": "all sizes 2..6, all float vectors and quaternions in range", "why_tests_cant": "Worst-case bound over all inputs.", "anchors": ["src/vector2.rs:norm2", "src/vector2.rs:normalize", "src/vector3.rs:norm2", "src/vector3.rs:normalize", "src/vector4.rs:norm2", "src/vector4.rs:normalize", "src/vector5.rs:norm2", "src/vector5.rs:normalize", "src/vector6.rs:norm2", "src/vector6.rs:normalize", "src/quaternion.rs:norm2", "src/quaternion.rs:normalize"]}
{"id": "C107", "title": "IEEE: sign symmetries are exact", "statement": "In floating point, with == as comparison and NaN matching NaN: negation moves through matrix and vector sums, products, dot products, trace and determinant (det(-A) = (-1)^n det A) without any rounding difference; a-b = -(b-a); the cross product is exactly antisymmetric; conj(p*q) = conj(q)*conj(p) for quaternions and dual quaternions; q and -q give exactly the same rotated vectors, rotation matrix, transformed points and homogeneous matrix; conj(q).to_rotation() is the transpose.", "quantifier": "all sizes 2..6, all float inputs incl. NaN and infinities, every binary format", "why_tests_cant": "All bit patterns; depends on the evaluation order and sign of every term.", "anchors": ["src/matrix2x2.rs:Mul", "src/matrix2x2.rs:Sub", "src/matrix2x2.rs:Neg", "src/matrix2x2.rs:det", "src/matrix2x2.rs:trace", "src/matrix3x3.rs:Mul", "src/matrix3x3.rs:Sub", "src/matrix3x3.rs:Neg", "src/matrix3x3.rs:det", "src/matrix3x3.rs:trace", "src/matrix4x4.rs:Mul", "src/matrix4x4.rs:Sub", "src/matrix4x4.rs:Neg", "src/matrix4x4.rs:det", "src/matrix4x4.rs:trace", "src/matrix5x5.rs:Mul", "src/matrix5x5.rs:Sub", "src/matrix5x5.rs:Neg", "src/matrix5x5.rs:det", "src/matrix5x5.rs:trace", "src/matrix6x6.rs:Mul", "src/matrix6x6.rs:Sub", "src/matrix6x6.rs:Neg", "src/matrix6x6.rs:det", "src/matrix6x6.rs:trace", "src/vector2.rs:Sub", "src/vector2.rs:Neg", "src/vector2.rs:Mul for V2<T>", "src/vector3.rs:Sub", "src/vector3.rs:Neg", "src/vector3.rs:Mul for V3<T>", "src/vector4.rs:Sub", "src/vector4.rs:Neg", "src/vector4.rs:Mul for V4<T>", "src/vector5.rs:Sub", "src/vector5.rs:Neg", "src/vector5.rs:Mul for V5<T>", "src/vector6.rs:Sub", "src/vector6.rs:Neg", "src/vector6.rs:Mul for V6<T>", "src/vector3.rs:cross", "src/quaternion.rs:Mul for Quaternion<T>", "src/quaternion.rs:conj", "src/quaternion.rs:to_rotation", "src/dual_quaternion.rs:Mul", "src/dual_quaternion.rs:transform_point", "src/transformations.rs:skew_from_vec"]}
{"id": "C108", "title": "IEEE: structural zeros and identities stay exact", "statement": "In floating point, on finite inputs: the determinant of a matrix with a zero row or column is zero and inverse() returns None; the determinant of a triangular matrix is the rounded product of the diagonal and nothing else; a x a = 0, skew_from_vec(a)*b = a x b; q*conj(q) is exactly real with real part dot(q,q); one() is an exact identity of quaternion and dual quaternion products and actions; the product of homogeneous transforms has last row exactly [0,0,0,1] and its first two rows are exactly those of R1*R2 and R1*p2+p1 (the third row sums the same terms in another order); homogeneous_inverse transposes exactly; translations add exactly as the sums of their parts. (Determinant, a x a and q*conj(q): unless an intermediate product overflows.)", "quantifier": "all sizes 2..6, all finite float inputs, every binary format", "why_tests_cant": "All bit patterns incl. signed zeros; a changed evaluation order can break cancellation.", "anchors": ["src/matrix2x2.rs:det", "src/matrix2x2.rs:inverse", "src/matrix3x3.rs:det", "src/matrix3x3.rs:inverse", "src/matrix4x4.rs:det", "src/matrix4x4.rs:inverse", "src/matrix5x5.rs:det", "src/matrix5x5.rs:inverse", "src/matrix6x6.rs:det", "src/matrix6x6.rs:inverse", "src/vector3.rs:cross", "src/quaternion.rs:Mul for Quaternion<T>", "src/quaternion.rs:one", "src/dual_quaternion.rs:Mul", "src/dual_quaternion.rs:one", "src/dual_quaternion.rs:transform_point", "src/dual_quaternion.rs:new_from_point", "src/transformations.rs:homogeneous_from_rotation", "src/transformations.rs:homogeneous_inverse", "src/transformations.rs:skew_from_vec", "src/transformations.rs:translation_2d", "src/transformations.rs:translation_3d"]}
{"id": "C109", "title": "IEEE: rotations are as accurate as sin and cos", "statement": "If the platform's sin and cos are within e of the true values, then in floating point every entry of rot2, rotx, roty, rotz and ksi is within e of the true rotation of that angle; every entry of euler_to_rotation (any sequence) is finite and within 2((1+u)^6 (1+e)^3 - 1) plus an underflow term of the matrix the code gives in exact arithmetic (a rotation), and the result is orthogonal up to six times that; the same with explicit constants for Quaternion::from_euler_angles (half angles) and rotation_from_axis_angle (axis components of magnitude at most 1).", "quantifier": "all finite angles, all Euler sequences, every binary format with emax >= 9, every library with error e <= 1", "why_tests_cant": "A bound over all angles and over every library implementation; tests see one library and few angles.", "anchors": ["src/transformations.rs:rot2", "src/transformations.rs:rotx", "src/transformations.rs:roty", "src/transformations.rs:rotz", "src/transformations.rs:ksi", "src/transformations.rs:euler_to_rotation", "src/transformations.rs:rotation_from_axis_angle", "src/quaternion.rs:from_euler_angles"]}
{"id": "C110", "title": "IEEE: LU is backward stable", "statement": "Whenever lu on a floating point 2x2 to 6x6 matrix returns a packed result with finite entries, the input was finite and the product of the two unpacked triangles equals the row-permuted input up to a component-wise error of ((1+u)^min(i,j+1) - 1) times the product of the absolute triangles plus an underflow term, except that a diagonal entry may carry the documented 1e-40 pivot replacement; the reported determinant equals the signed product of the computed pivots up to relative error (1+u)^n - 1 plus underflow.", "quantifier": "all matrices of floats, sizes 2 to 6, every binary format", "why_tests_cant": "A rounding-error bound over all matrices and all pivot orders; a test can only compare a few factorisations with a tolerance.", "anchors": ["src/matrix2x2.rs:lu", "src/matrix3x3.rs:lu", "src/matrix4x4.rs:lu", "src/matrix5x5.rs:lu", "src/matrix6x6.rs:lu"]}
{"id": "C111", "title": "IEEE: which calls can panic", "statement": "In floating point, with NaN and infinite entries included: lu panics exactly when every entry of the first row is zero or NaN, always with its own message, and otherwise returns row numbers that are in range; qr never panics and returns None exactly when the computed determinant is finite and below EPSILON; axis_angle and Quaternion::rotation panic exactly when the computed norm of the vector is zero, which includes nonzero vectors whose squares underflow; matrix_exponential, matrix_exponential6, adjoint, norm_inf (which returns a maximal entry, or NaN exactly if the first entry is NaN) and screw_lerp from a flagged start never panic; division of quaternions and dual quaternions, DualQuaternion::inverse and new_from_rot_trans panic exactly when the tested norm is finite and below EPSILON.", "quantifier": "all matrices, vectors, quaternions and dual quaternions of floats, every binary format", "why_tests_cant": "Needs every combination of NaN, infinity, zero and ordinary values in every entry, including through the pivot search.", "anchors": ["src/matrix2x2.rs:lu", "src/matrix2x2.rs:qr", "src/transformations.rs:axis_angle", "src/quaternion.rs:rotation", "src/transformations.rs:matrix_exponential", "src/transformations.rs:matrix_exponential6", "src/slices_methods.rs:norm_inf", "src/dual_quaternion.rs:inverse", "src/dual_quaternion.rs:screw_lerp"]}
{"id": "C112", "title": "IEEE: the sine of a finite quaternion exists", "statement": "In floating point Quaternion::sin returns a value for every quaternion. (False of the code: it panics on finite quaternions whose imaginary part has a squared length that overflows. It panics exactly on those.)", "quantifier": "all quaternions of floats, every binary format with at least 8 significant bits", "why_tests_cant": "The panic needs components beyond the square root of the largest float; ordinary tests never go there, and the absence of other panics is a statement about all values.", "anchors": ["src/quaternion.rs:sin", "src/quaternion.rs:argq", "src/quaternion.rs:normalize_q"]}
{"id": "C113", "title": "IEEE: how accurate and how large a computed inverse is", "statement": "In floating point every entry of a matrix returned by inverse() differs from the adjugate entry divided by the computed determinant by at most an explicit bound in the unit roundoff and the permanent of magnitudes of the minor, and from the entry of the true inverse by that plus its size times the relative error of the determinant; if that relative error is below one the matrix is truly invertible. The computed determinant has magnitude at least EPSILON. All entries are finite when the inputs are finite and moderate.", "quantifier": "all matrices of floats of sizes 2 to 6 whose inverse() is Some with finite determinant, every binary format", "why_tests_cant": "Tests compare a few well conditioned inverses with a tolerance; the bound must hold for every matrix, including nearly singular ones.", "anchors": ["src/matrix2x2.rs:inverse", "src/matrix3x3.rs:inverse", "src/matrix4x4.rs:inverse", "src/matrix5x5.rs:inverse", "src/matrix6x6.rs:inverse"]}
{"id": "C114", "title": "Laws of inverses", "statement": "Whenever inverse() of A is Some X: det A times det X is one; the inverse of the transpose of A is the transpose of X; the inverse of X, when it is Some, is A (it is Some unless |det X| is below EPSILON); the inverse of a product, when both factors are invertible for the code and the product is not below the threshold, is the product of the inverses in reverse order; the same for non-zero multiples and negation; the identity is its own inverse.", "quantifier": "all square matrices of sizes 2 to 6 over the reals", "why_tests_cant": "Each law relates several calls on arbitrary matrices; a test checks one pair of matrices with a tolerance and cannot tell a law from a coincidence.", "anchors": ["src/matrix2x2.rs:inverse", "src/matrix3x3.rs:inverse", "src/matrix4x4.rs:inverse", "src/matrix5x5.rs:inverse", "src/matrix6x6.rs:inverse"]}
{"id": "C115", "title": "Determinant, trace and eigenvalues do not depend on the basis", "statement": "If inverse() of A is Some X, then X*M*A has the determinant and the trace of M, products of such conjugates are conjugates of products, and if M has inverse Y then the inverse of X*M*A is X*Y*A. For 2x2 matrices real_eigenvals of X*M*A is real_eigenvals of M.", "quantifier": "all square matrices M and A of sizes 2 to 6 over the reals with A invertible for the code", "why_tests_cant": "Quantifies over all changes of basis; a test can only try a few.", "anchors": ["src/matrix2x2.rs:inverse", "src/matrix2x2.rs:real_eigenvals", "src/matrix3x3.rs:inverse", "src/matrix4x4.rs:inverse", "src/matrix5x5.rs:inverse", "src/matrix6x6.rs:inverse"]}
{"id": "C116", "title": "The QR decomposition is the only one", "statement": "If qr() of A is Some (Q, R), then every factorisation of A into an orthogonal matrix and an upper triangular matrix with positive diagonal is (Q, R).", "quantifier": "all square matrices of sizes 2 to 6 over the reals for which qr() returns Some", "why_tests_cant": "Uniqueness quantifies over all other factorisations, which no test can enumerate.", "anchors": ["src/matrix2x2.rs:qr", "src/matrix3x3.rs:qr", "src/matrix4x4.rs:qr", "src/matrix5x5.rs:qr", "src/matrix6x6.rs:qr"]}
{"id": "C117", "title": "Rotations and rigid motions preserve geometry and form groups", "statement": "Multiplying by a rotation matrix keeps scalar products, lengths, distances, Frobenius norms and determinants and commutes with the cross product; products and transposes of rotations are rotations and inverse() of a rotation is Some of rotation_inverse; from_rotation sends products to products and inverses to conjugates up to sign. Rigid 4x4 matrices keep the distance of points, have determinant one, and are closed under product and homogeneous_inverse.", "quantifier": "all rotation matrices, all rigid transformations, all vectors and points over the reals", "why_tests_cant": "These are statements about all pairs of vectors and all rotations; tests sample a few and use tolerances.", "anchors": ["src/transformations.rs:homogeneous_from_rotation", "src/transformations.rs:homogeneous_inverse", "src/transformations.rs:rotation_inverse", "src/matrix3x3.rs:inverse", "src/quaternion.rs:from_rotation", "src/vector3.rs:cross"]}
{"id": "C118", "title": "Parameters come back from what was built with them", "statement": "rotation_to_euler of euler_to_rotation(y, p, r, None) is (y, p, r), and so is to_euler_angles of from_euler_angles, for angles in the principal ranges and pitch at least four EPSILON away from a quarter turn; the angles returned are in the principal ranges for every rotation. axis_angle of rotation(t, v) is the normalised v and t for t between zero and a full turn (None for the axis when the sine of the half angle is at most EPSILON). matrix_log and matrix_log6 return what matrix_exponential and matrix_exponential6 were given when the angle is between EPSILON and a half turn.", "quantifier": "all angles in the principal ranges, all unit axes, all twists over the reals", "why_tests_cant": "The converse of the round trips starting from matrices: injectivity over continuous ranges of parameters cannot be sampled.", "anchors": ["src/transformations.rs:rotation_to_euler", "src/transformations.rs:euler_to_rotation", "src/quaternion.rs:to_euler_angles", "src/quaternion.rs:from_euler_angles", "src/quaternion.rs:axis_angle", "src/transformations.rs:matrix_log", "src/transformations.rs:matrix_log6"]}
{"id": "C119", "title": "Interpolation has constant speed and does not depend on the frame", "statement": "For unit quaternions (parallel, or at an angle with sine at least 0.001) the angle between slerp at two parameters is proportional to their difference; multiplying both end points by a unit quaternion from the left or right multiplies the whole path; the path from b to a is the reversed path up to sign; interpolating towards an intermediate point scales the parameter. screw_lerp between motions differing by an angle between EPSILON and a full turn (and whose real parts have a product with non-negative real part) is the start followed by a screw about one fixed line, with angle and displacement proportional to the parameter.", "quantifier": "all unit quaternions, all motions satisfying the stated condition, all parameters", "why_tests_cant": "Constant speed and frame independence relate infinitely many parameter values and frames.", "anchors": ["src/quaternion.rs:slerp", "src/dual_quaternion.rs:screw_lerp", "src/dual_quaternion.rs:pow"]}
{"id": "C120", "title": "IEEE: rigid motions in floating point", "statement": "In floating point: each component of get_translation of r + eps d is within ((1+u)^4-1)*2|d||r| plus underflow of 2 d conj(r); the dual part of a dual quaternion product is within twice ((1+u)^5-1)(|r1||d2|+|d1||r2|) plus underflow of the exact one and the real part obeys the bound of C105; homogeneous_inverse returns exactly the transposed block and last row and a translation within ((1+u)^3-1) times the sum of magnitudes of -R^T p, so it is a left inverse up to that and the orthonormality error of R; cross products, screw_to_axis and adjoint obey the stated bounds and their copied parts are exact; and nothing of this overflows when 16 B^2 (1+u)^6 is below the overflow threshold, B bounding the components.", "quantifier": "all binary formats, all finite results (or all inputs bounded by B)", "why_tests_cant": "Rounding errors depend on all bits of all inputs; a bound over all of them is not testable.", "anchors": ["src/dual_quaternion.rs:get_translation", "src/dual_quaternion.rs:mul", "src/transformations.rs:homogeneous_inverse", "src/transformations.rs:adjoint", "src/transformations.rs:screw_to_axis", "src/vector3.rs:cross"]}
{"id": "C121", "title": "Building quaternions and dual quaternions, and what the normalized flag tells", "statement": "Every constructor stores the components it is given (new_from_array: rotation first, then translation, the same motion as new_from_rot_trans; new_from_point: 1 + eps v, which as a motion translates by 2v); constructors and arithmetic never return a flagged value except one and the constructors of motions, whatever the flags of their operands; get_axis of an unflagged quaternion of any norm is its imaginary part scaled to length one and get_angle does not depend on the norm; is_normalized is true exactly for flagged values, nearly zero real parts, and real parts whose norm is within relative EPSILON of one (the dual part matters only near overflow, so orthogonality is not checked).", "quantifier": "all components, all flags, all element types for the flags; all reals for the rest", "why_tests_cant": "A stale flag or swapped component is invisible to tests that use unit values and symmetric data.", "anchors": ["src/quaternion.rs:new_from", "src/quaternion.rs:new_real", "src/quaternion.rs:new_imag", "src/quaternion.rs:get_axis", "src/quaternion.rs:get_angle", "src/dual_quaternion.rs:new_from_array", "src/dual_quaternion.rs:new_from_point", "src/dual_quaternion.rs:is_normalized"]}
{"id": "C122", "title": "The eigenvalue example: QR iteration", "statement": "examples/eigenvalues.rs never panics and does between one and max_iterations steps; the matrix it ends with is orthogonally similar to the start (same characteristic polynomial; symmetric if the start is), and the printed values are exactly the eigenvalues of a matrix whose Frobenius distance to the start is that of the entries left below the diagonal; if the start has three real eigenvalues of different absolute value and eigenvectors in general position the iterates tend to an upper triangular matrix with the eigenvalues on the diagonal, largest first, and for every positive tolerance the loop ends by the tolerance after a number of steps that does not depend on the maximum; when it ends before the maximum the printed values are the eigenvalues.", "quantifier": "all 3x3 real matrices, all tolerances, all maxima (convergence: all matrices with the stated spectrum)", "why_tests_cant": "Convergence is a statement about infinitely many iterations; a test runs one matrix.", "anchors": ["examples/eigenvalues.rs:convert_to_similar", "examples/eigenvalues.rs:main", "src/matrix3x3.rs:qr", "src/slices_methods.rs:check_elements"]}
{"id": "C123", "title": "The other example programs do what their comments say", "statement": "quaternions.rs: four turns by a >= EPSILON about a unit axis are one turn by 4a, and four right angles give the vector back; Euler angles in the principal ranges, at least four EPSILON from gimbal lock, come back. dual_quaternion_screw_parameters.rs: a turn about a unit axis and a shift d along it have screw parameters (axis, 0, angle, d). dual_quaternion_transform_point.rs: matrix and dual quaternion give the same point for all angles and points (the example gives the point a fourth component 0, so this is the rotation only). dual_quaternions.rs: the homogeneous matrix comes back, translation times rotation is new_from_rot_trans, and with the rotation taken from the matrix the same up to sign and the same motion. inverse.rs, solve_linear_system.rs: the printed checks are the identity and b, and the solution is unique. for_each_example.rs: entry-wise. nice_square_example.rs: the square of a singular 2x2 matrix is its trace times the matrix. qr_example.rs: q*r is the matrix and q.det() is the sign of its determinant, for every size.", "quantifier": "all angles, axes, points, shifts; all matrices with |det| at least EPSILON", "why_tests_cant": "The examples print values for one input each and assert nothing.", "anchors": ["examples/quaternions.rs", "examples/dual_quaternions.rs", "examples/dual_quaternion_transform_point.rs", "examples/dual_quaternion_screw_parameters.rs", "examples/inverse.rs", "examples/solve_linear_system.rs", "examples/for_each_example.rs", "examples/nice_square_example.rs", "examples/qr_example.rs"]}
{"id": "C124", "title": "IEEE: the QR factors in floating point", "statement": "When qr returns factors of a matrix with finite entries and determinant computed exactly as 1, Q has orthonormal columns and Q*R gives back the matrix, up to rounding. Whatever the entries, a column of Q without NaN and infinity is zero or has norm between 0.7 and 2.1 and no finite entry of Q exceeds 1.25; and for finite factors the Frobenius norm of Q*R - A is at most the distance of Q^T*Q from the identity times the norm of A, plus explicit rounding terms.", "quantifier": "all float formats, all matrices of size 2 to 6 (columns: precision at least 11, so f32 and f64)", "why_tests_cant": "The loss of orthogonality needs a nearly dependent pair of columns with a determinant that is still computed exactly; the bounds quantify over all floats.", "anchors": ["src/matrix2x2.rs:qr", "src/matrix3x3.rs:qr", "src/matrix4x4.rs:qr", "src/matrix5x5.rs:qr", "src/matrix6x6.rs:qr", "src/slices_methods.rs:project_x_over_y", "src/slices_methods.rs:normalize"]}
{"id": "C125", "title": "IEEE: approximate comparisons and the rotation test on floats", "statement": "compare_floats: true only if the exact distance is below the tolerance, and true if it is below it by a factor 1+u. nearly_equal with a finite tolerance: true only for equal infinities, equal numbers, a zero and a number below the tolerance, or numbers whose relative distance is below the tolerance up to two roundings, even when the sum of the magnitudes overflows; and true if it is below with a margin of four roundings. is_rotation: true only for finite entries and computed determinants within 5u of 1, hence an exact determinant within that and the rounding error of the determinant; and a rotation matrix whose entries are correctly rounded is accepted.", "quantifier": "all float formats and all floats including NaN and infinities (is_rotation: precision at least 11)", "why_tests_cant": "Rounding, overflow of the sum and NaN are in the quantifier; acceptance of rounded rotations fails for about one in ten matrices.", "anchors": ["src/utils.rs:nearly_equal", "src/utils.rs:compare_floats", "src/utils.rs:is_rotation"]}
{"id": "C126", "title": "IEEE: rotation matrices and quaternions convert into each other", "statement": "from_rotation of a float matrix whose entries are within delta <= 1/50 of a rotation R returns finite components within 6 delta + 25 u of those of a unit quaternion whose rotation is R, whichever branch the rounded entries select, and its norm is within 12 delta + 50 u of 1. to_rotation of a float quaternion within eps of a unit quaternion is finite and within 5 eps + 17 u of its rotation matrix. Matrix to quaternion and back gives R within 30 delta + 142 u; quaternion to matrix and back gives the quaternion up to sign within 30 eps + 127 u.", "quantifier": "all float formats of precision at least 8 (11 for the last clause), all rotations R, all float matrices and quaternions within the stated distance", "why_tests_cant": "The four branches select on rounded entries, so near a branch border the code may take another branch than exact arithmetic would; the bound has to hold for both.", "anchors": ["src/quaternion.rs:from_rotation", "src/quaternion.rs:to_rotation"]}
{"id": "C127", "title": "IEEE: quaternions of an axis and an angle", "statement": "In floats, with sin and cos within eps of the exact values: rotation(theta, v) of a finite non-zero vector whose squares do not underflow and whose norm does not overflow does not panic, sets the normalized flag and is within 1.1 eps + 7 u of the exact unit quaternion, whatever the length of v; to_rotation of it is within 6 eps + 52 u of rotation_from_axis_angle of the exact unit axis. rotation_norm_encoded(v) with |v| = N <= 256 is within 1.1 eps + (3 N + 10) u of (cos N/2, sin N/2 v/N). With atan2 within eps of the exact angle, get_angle of a quaternion within delta <= 1/8 of a unit quaternion is within 2 eps + 13 delta + 42 u of its angle.", "quantifier": "all float formats of precision at least 8, all mathematical libraries of accuracy eps, all vectors and quaternions meeting the stated conditions", "why_tests_cant": "Tests compare a few angles with a tolerance chosen to pass; they cannot show that no axis or length loses more digits.", "anchors": ["src/quaternion.rs:rotation", "src/quaternion.rs:rotation_norm_encoded", "src/quaternion.rs:get_angle", "src/transformations.rs:rotation_from_axis_angle"]}
{"id": "C128", "title": "IEEE: long chains of rotations stay close to the exact product", "statement": "Multiplying n float quaternions, each within delta of a unit quaternion, gives finite components within ((1 + delta)(1 + 9 u))^n - 1 of the exact product of those unit quaternions, as long as that power stays below 2. Multiplying n float matrices of size k = 2..6, each within delta of an orthogonal matrix in the Frobenius norm, gives finite entries within ((1 + delta)(1 + (k^2 + 1) u))^n - 1 of the exact product. So drift grows linearly in n for as long as it is small.", "quantifier": "all float formats of precision at least 8, all chain lengths, all chains of nearly unit quaternions or nearly orthogonal matrices", "why_tests_cant": "A test multiplies a handful of rotations; drift after thousands of steps needs an induction over the length of the chain.", "anchors": ["src/quaternion.rs:mul", "src/matrix2x2.rs:mul", "src/matrix3x3.rs:mul", "src/matrix4x4.rs:mul", "src/matrix5x5.rs:mul", "src/matrix6x6.rs:mul"]}
{"id": "C129", "title": "IEEE: 2x2 real eigenvalues", "statement": "A float 2x2 matrix with real eigenvalues gets them from real_eigenvals, each close to the exact one. False: the diagonal f64 matrix of 1 + 2^-52 and 1 + 2^-50 gets None, and the diagonal matrix of 1 and 2^-60 gets the eigenvalue 0. What holds for entries of magnitude at most M, with D the exact discriminant and E = 73 u M^2 + 11 eta: D < -E gives None; D >= E gives both eigenvalues within 0.51 E / sqrt(D) + 9 u M + eta; and whenever values come back they are within 0.51 sqrt(E) + 9 u M + eta of (t +- sqrt(max(D, 0))) / 2.", "quantifier": "all float formats of precision at least 8, all 2x2 float matrices whose discriminant does not overflow", "why_tests_cant": "Tests use matrices with well separated eigenvalues; the failures need nearly equal or very different eigenvalues, and the bound is over all matrices.", "anchors": ["src/matrix2x2.rs:real_eigenvals"]}
{"id": "C130", "title": "IEEE: a change of units by a power of two is exact", "statement": "Multiplying all inputs by powers of two (metres to units of 2^-10 metres) changes no bit of a float result except the exponent, as long as no product underflows and nothing overflows: det of an n x n matrix scales by 2^(n k), matrix products, matrix-vector products, dot and cross products by the product of the factors, norm2 by 2^k, the inverses of 2x2 and 3x3 matrices by 2^-k whenever both are reported invertible, and normalize returns the same vector bit for bit. Sums and differences scale in every range, subnormal numbers included.", "quantifier": "all float formats, all sizes 2 to 6 (inverses: 2 and 3), all exponents k, all inputs whose entries are multiples of 2^-G with the stated relation between G and the format", "why_tests_cant": "Tests compare results up to a tolerance for a few inputs in one unit; equality of bits under every rescaling is a statement about all inputs and rounding.", "anchors": ["src/matrix3x3.rs:det", "src/matrix3x3.rs:inverse", "src/matrix2x2.rs:inverse", "src/vector3.rs:norm2", "src/vector3.rs:cross", "src/vector3.rs:normalize", "src/matrix4x4.rs:mul"]}
{"id": "C131", "title": "IEEE: the exponential of an antisymmetric matrix is accurate", "statement": "In floating point matrix_exponential(S), for an antisymmetric S whose vector has length N, never panics, and every entry of the result is within 2.2 eps + (9 N + 72) u of the exponential series of S, where eps is the accuracy of sin and cos and u the unit roundoff; also for arguments so small that the code returns the identity. The computed matrix R therefore is orthogonal up to 6 E + 3 E^2 with this E, also for angles of many turns.", "quantifier": "all float formats of precision at least 8, all libraries whose sin and cos have accuracy eps <= 1/4, all finite antisymmetric S whose norm does not overflow and whose nonzero entries have squares that do not underflow", "why_tests_cant": "A test checks a few rotation vectors to a tolerance; the error bound covers every vector, every number of turns and the switch at the threshold.", "anchors": ["src/transformations.rs:matrix_exponential", "src/transformations.rs:axis_angle", "src/transformations.rs:skew_to_vec"]}
{"id": "C132", "title": "IEEE: the logarithm undoes the exponential of a rotation", "statement": "In floating point matrix_log(matrix_exponential(S)) gives back an antisymmetric matrix S whose angle N is below pi, up to an error of a few units of roundoff.", "quantifier": "all float formats of precision at least 8, all libraries whose sin, cos and acos have a given accuracy, all finite antisymmetric S of angle below pi", "why_tests_cant": "A test checks angles of order one, where the round trip is accurate; the loss for small angles is invisible there.", "anchors": ["src/transformations.rs:matrix_log", "src/transformations.rs:matrix_exponential"]}
{"id": "C133", "title": "IEEE: the exponential of a twist is accurate", "statement": "In floating point matrix_exponential6(X), for X in se(3) with a rotation part of angle N and a translation part with entries of size at most one, is within a few units of roundoff of the exponential series of X.", "quantifier": "all float formats of precision at least 8, all libraries whose sin and cos have accuracy eps <= 1/4, all finite X in se(3) whose rotation part has norm between 3 u and 16", "why_tests_cant": "A test uses angles of order one; half of the digits of the translation are lost for small angles.", "anchors": ["src/transformations.rs:matrix_exponential6", "src/transformations.rs:se3_get_parts"]}
{"id": "C134", "title": "IEEE: Euler angles of a rotation matrix", "statement": "In floating point the angles returned by rotation_to_euler for a matrix close to a rotation describe that rotation, and euler_to_rotation rebuilds the matrix from them, up to a small multiple of the error of the matrix, of the library and of roundoff.", "quantifier": "all float formats of precision at least 8 or 9, all libraries whose atan2, sin, cos and FRAC_PI_2 have accuracy eps, all rotations R and all float matrices within delta of R", "why_tests_cant": "Tests convert a few harmless angles; the conversion degrades towards gimbal lock.", "anchors": ["src/transformations.rs:rotation_to_euler", "src/transformations.rs:euler_to_rotation", "src/utils.rs:nearly_equal"]}
{"id": "C135", "title": "IEEE: spherical interpolation", "statement": "In floating point slerp of two quaternions close to unit quaternions is close to the exact spherical interpolation; in particular interpolating from a quaternion to itself gives that quaternion for every t.", "quantifier": "all float formats of precision at least 8, all libraries whose sin, cos and acos have accuracy eps, all unit quaternions x and y, all float quaternions within delta of them, all t in [0, 1]", "why_tests_cant": "Tests interpolate between a few well separated quaternions; rounding decides which branch nearly equal ones take.", "anchors": ["src/quaternion.rs:slerp", "src/quaternion.rs:dot", "src/quaternion.rs:normalize"]}
{"id": "C136", "title": "IEEE: dual quaternions as rigid motions", "statement": "In floating point a dual quaternion built from a rotation and a translation, or from a homogeneous matrix, represents that rigid motion; converting back gives the matrix again; and the product of a chain of n of them gives the product of the n motions, with an error that grows at most linearly for a while: a small multiple of n times the input error plus roundoff, relative to the size of the translations.", "quantifier": "all float formats of precision at least 8 or 11, all rigid motions, all float inputs within delta of them, all chain lengths n", "why_tests_cant": "Tests convert a single matrix; the error after a long chain depends on every factor.", "anchors": ["src/dual_quaternion.rs:new_from_rot_trans", "src/dual_quaternion.rs:new_from_homogeneous", "src/dual_quaternion.rs:to_homogeneous", "src/dual_quaternion.rs:get_translation", "src/dual_quaternion.rs:mul"]}
{"id": "C137", "title": "IEEE: chains of homogeneous matrices", "statement": "In floating point the product of n homogeneous matrices, each close to a rigid motion, is close to the product of the motions: last row exactly 0 0 0 1, and the rotation and translation errors grow with n like those of the inputs plus a fixed number of roundoffs per product. Points moved by the result, the homogeneous inverse, and the inverse transform of a point inherit the error with small constants.", "quantifier": "all float formats of precision at least 8, all rigid motions (also with a reflection), all float matrices within delta of them, all chain lengths n, all points", "why_tests_cant": "Kinematic chains multiply many matrices; a unit test compares one product with a tolerance and says nothing about the drift.", "anchors": ["src/matrix4x4.rs:mul", "src/transformations.rs:homogeneous_inverse", "src/transformations.rs:homogeneous_inverse_transform"]}
{"id": "C138", "title": "IEEE: exponential of a quaternion", "statement": "In floating point the exponential of a quaternion with moderate components is finite and equals the exact exponential up to a relative error of a few roundoffs plus a few times the error of sin, cos and exp, also for vector parts of any small length; the exponential of a pure quaternion is a unit quaternion up to that error.", "quantifier": "all float formats of precision at least 8 with a wide enough exponent range (f32 and f64 among them), all mathematical libraries with error at most 1/8, all finite quaternions with real part at most 4 and vector part at most 8", "why_tests_cant": "sin(n)/n is computed from two rounded numbers and switched off below epsilon; sampling cannot cover the neighbourhood of the switch.", "anchors": ["src/quaternion.rs:exp"]}
{"id": "C139", "title": "IEEE: logarithm and square root of quaternions", "statement": "In floating point the logarithm of a quaternion is finite and its exponential is the quaternion again, the computed exp of the computed ln gives the quaternion back, and the square of the computed square root is the quaternion, all up to a fixed number of roundoffs relative to the norm: also at -1, where the direction of the logarithm is undetermined, and for arbitrarily small vector parts. A quaternion flagged as normalised is used as it is, so the error of its norm is added. normalize_a and normalize_q return the unit quaternion up to five roundoffs.", "quantifier": "all float formats of precision at least 8 with a wide exponent range (f32, f64), all libraries with error at most 1/8 for sin, cos, exp, ln and atan2, all finite quaternions with norm between 1/16 and 8, respectively all flagged ones with norm within 1/8 of 1", "why_tests_cant": "The branch below epsilon replaces the direction by the x axis; near -1 this is discontinuous, and only a statement about all inputs shows that exp(ln q) = q survives.", "anchors": ["src/quaternion.rs:ln", "src/quaternion.rs:sqrt", "src/quaternion.rs:exp", "src/quaternion.rs:normalize_a", "src/quaternion.rs:normalize_q"]}
{"id": "C140", "title": "IEEE: poses and quaternions through Euler angles", "statement": "In floating point get_parts splits a pose into its translation, unchanged, and a quaternion of its rotation, accurate up to sign; and the three Euler angles a quaternion is converted to give that quaternion back, up to sign.", "quantifier": "all float formats of precision at least 9, all libraries whose sin, cos, atan2 and FRAC_PI_2 have accuracy eps, all rotations and unit quaternions, all float poses and quaternions within delta of them", "why_tests_cant": "Tests split one pose and compare with a tolerance; the error grows as the pitch approaches a quarter turn, and the limit of what is returned near gimbal lock needs a proof.", "anchors": ["src/transformations.rs:get_parts", "src/transformations.rs:rotation_to_euler", "src/quaternion.rs:to_euler_angles", "src/quaternion.rs:from_euler_angles", "src/quaternion.rs:to_rotation"]}
{"id": "C141", "title": "IEEE: powers of rigid motions and screw interpolation", "statement": "In floating point, raising a dual quaternion that is close to a screw motion to a power e between -1 and 1 gives a dual quaternion close to the screw motion about the same line with e times the angle and e times the displacement, and screw interpolation between two close-to-rigid dual quaternions stays close to the exact interpolation.", "quantifier": "all float formats of precision at least 8, all libraries whose sin, cos and acos have accuracy eps, all screw motions, all float dual quaternions within delta of them, all finite exponents of absolute value at most 1", "why_tests_cant": "Tests interpolate between a few motions at a few parameters; how the error depends on the angle, and what happens when rounding moves the real part past 1, needs a proof over all inputs.", "anchors": ["src/dual_quaternion.rs:pow", "src/dual_quaternion.rs:screw_lerp", "src/dual_quaternion.rs:new_from_screw_parameters"]}
{"id": "C142", "title": "Integers without overflow checks: exact modulo the number of values", "statement": "With an integer component type in a build without overflow checks, every entry of a sum, difference, negation, scalar multiple, dot product, cross product, matrix-vector product or matrix product, and every component of the sums and products of quaternions and dual quaternions, is the exact integer reduced modulo the number of values of the type. In particular it is the exact integer whenever that fits, even if intermediate results overflowed.", "quantifier": "all ranges of integers containing 0 and 1, all matrices and vectors of size 2 to 6, all quaternions and dual quaternions over them", "why_tests_cant": "Tests run in debug builds, where overflow panics, and with small numbers.", "anchors": ["src/matrix2x2.rs:mul", "src/matrix3x3.rs:mul", "src/matrix4x4.rs:mul", "src/matrix5x5.rs:mul", "src/matrix6x6.rs:mul", "src/vector3.rs:dot", "src/vector3.rs:cross", "src/quaternion.rs:mul", "src/dual_quaternion.rs:mul"]}
{"id": "C143", "title": "IEEE: screw parameters", "statement": "In floating point, the screw parameters computed from a dual quaternion that is close to a rigid motion are close to the axis, moment, angle and displacement of the motion, building a dual quaternion from them gives the motion back up to rounding, and the logarithm is the axis times half the angle with half the translation.", "quantifier": "all wide float formats, all libraries whose sin, cos, tan and atan2 have accuracy eps, all screw motions, all float dual quaternions within delta of them; all translations for the negative part", "why_tests_cant": "Tests take the parameters of one or two motions; how the errors grow as the angle becomes small, and that the pole of the cotangent does no harm, needs a proof over all inputs.", "anchors": ["src/dual_quaternion.rs:get_screw_parameters", "src/dual_quaternion.rs:new_from_screw_parameters", "src/dual_quaternion.rs:log"]}
{"id": "C144", "title": "The representations agree", "statement": "Exponential, logarithm, powers and interpolation describe the same motion in every representation: the rotation matrix of the quaternion exponential of w is matrix_exponential of the cross product with 2w, and rotation_norm_encoded(2w) is that quaternion; matrix_log of the rotation of a unit quaternion is the cross product with twice its quaternion logarithm; slerp follows a exp(t log(a^-1 b)) with matrix_log; the matrix of the dual quaternion of a screw is the exponential of its twist, also as built by screw_to_axis, is what matrix_exponential6 returns, and matrix_log6 gives the twist back; dual quaternion powers and screw_lerp follow the exponential of multiples of matrix_log6.", "quantifier": "all vectors that are zero or longer than EPSILON; unit quaternions with positive real part; all lines, angles and displacements (the code's exponential from EPSILON on, its logarithm below a half turn); all unit quaternions that are not orthogonal and are parallel or at least 0.001 apart; all pairs of motions less than half a turn and at least EPSILON apart, sign test not negative; every parameter", "why_tests_cant": "Two representations are compared in no test; sign and factor-two conventions (half angles, moment of the line, order of the twist) only show up in the comparison.", "anchors": ["src/quaternion.rs:exp", "src/quaternion.rs:ln", "src/quaternion.rs:rotation_norm_encoded", "src/quaternion.rs:slerp", "src/transformations.rs:matrix_exponential", "src/transformations.rs:matrix_log", "src/transformations.rs:matrix_exponential6", "src/transformations.rs:matrix_log6", "src/transformations.rs:screw_to_axis", "src/transformations.rs:twist_to_se3", "src/dual_quaternion.rs:new_from_screw_parameters", "src/dual_quaternion.rs:pow", "src/dual_quaternion.rs:screw_lerp", "src/dual_quaternion.rs:to_homogeneous"]}
{"id": "C145", "title": "Overflow-checked integers: quaternions and divisions", "statement": "With integers whose overflow panics, every component that is returned is the exact one: cross products and l1 norms, negatives, multiples and quotients (rounded towards zero, a zero divisor panics) of vectors and matrices, sum, difference, product, conjugate, squared norm, scalar product and rotation matrix of quaternions, quaternion times vector (which is q v q* + (1-|q|^2) v for a quaternion of any length), sum, product and conjugates of dual quaternions, get_translation and transform_point. Explicit bounds on the inputs guarantee that nothing overflows on the way.", "quantifier": "all integer types, all sizes, all integer vectors, matrices, quaternions and dual quaternions; the no-overflow parts for all inputs within the stated bounds", "why_tests_cant": "Tests use a handful of small values; whether an intermediate result overflows although the final one fits depends on the order of operations in every component.", "anchors": ["src/vector3.rs:cross", "src/slices_methods.rs:norm_l", "src/quaternion.rs:mul", "src/quaternion.rs:to_rotation", "src/dual_quaternion.rs:mul", "src/dual_quaternion.rs:get_translation", "src/dual_quaternion.rs:transform_point", "src/vector3.rs:div", "src/matrix3x3.rs:div"]}
{"id": "C146", "title": "IEEE: inverses and linear systems with integer entries", "statement": "A float matrix whose entries are integers of magnitude at most K, with n! K^n at most 2^p, has an inverse exactly when it is regular: inverse() is None for determinant zero and Some otherwise. Every entry of the computed inverse is right up to two roundings, relative to that entry, however ill-conditioned the matrix is; the product inverse * v with an integer right-hand side is within n+2 roundings of the largest sum from the solution of the linear system. In particular the program solve_linear_system.rs prints in f64 every component of the solution to within 3e-14 and its check a * solution is within 2e-12 of b.", "quantifier": "all binary formats with exponents reaching 2^(-2p) and 2^(2p+8), f32 and f64 included; sizes 2 to 6; all matrices with integer entries within the bound", "why_tests_cant": "Tests invert a few fixed matrices and compare with a tolerance; that the determinant, all cofactors and the singularity test are exact for every integer matrix in range, and that conditioning plays no role, is a statement about all of them.", "anchors": ["src/matrix2x2.rs:inverse", "src/matrix3x3.rs:inverse", "src/matrix4x4.rs:inverse", "src/matrix5x5.rs:inverse", "src/matrix6x6.rs:inverse", "examples/solve_linear_system.rs:main"]}
{"id": "C147", "title": "IEEE: functions of slices of any length", "statement": "On float slices of any length: find_max_min panics only on the empty slice, returns NaN twice if the first element is NaN, and otherwise skips NaN elements and returns the first of the largest and the first of the smallest remaining elements with their positions. norm_l and norm2 are NaN only if an element is NaN; norm_l ignores signs and is within length-1 roundings of the sum of magnitudes; dot panics for different lengths and is otherwise within one rounding per element of the sum of products; norm2, normalize and project_x_over_y carry the stated relative error; projecting a slice over itself gives exactly 1.", "quantifier": "all binary formats; all slices of any length, elements possibly NaN or infinite", "why_tests_cant": "Tests call these on one slice of length three; where NaN elements go, how the error grows with the length and when overflow matters is about every slice.", "anchors": ["src/slices_methods.rs:find_max_min", "src/slices_methods.rs:norm_l", "src/slices_methods.rs:norm2", "src/slices_methods.rs:dot", "src/slices_methods.rs:normalize", "src/slices_methods.rs:project_x_over_y"]}
{"id": "C148", "title": "Exactly where the deviating functions are right", "statement": "For the functions that do not do what their name says, the inputs on which they do are known exactly. V3 * M33 is the row-vector product iff v is in the kernel of M - M^T. inverse is None iff |det| < EPSILON. norm_inf is the infinity norm iff no component is further below zero than the largest is above. The determinant reported by lu is the determinant iff the matrix is regular. is_rotation accepts iff the determinant d is positive with |d^2 - 1| < EPSILON (d^2 + 1). slerp(a, b, 1) between nearly parallel unit quaternions reaches b iff the dot product is not negative and the last two components of b agree. transform_point is the motion of to_homogeneous iff there is no translation. (a*b)/b = a for dual quaternions iff the stated commutators cancel. pow of a motion turning by less than EPSILON scales the translation by e iff e = 0 or there is none. matrix_exponential6 is the exponential iff the rotation part has norm at least EPSILON. matrix_log is a logarithm iff the rotation is not a half turn about nearly the x axis, and matrix_exponential undoes it iff in addition the rotation is the identity or turns by at least EPSILON.", "quantifier": "all inputs, in exact arithmetic with the constants of f32, f64 or any other float type", "why_tests_cant": "Tests exhibit single inputs; an equivalence says for every input on which side it falls, so that a caller can decide whether a known defect concerns them.", "anchors": ["src/vector3.rs:mul", "src/slices_methods.rs:norm_inf", "src/transformations.rs:is_rotation", "src/quaternion.rs:slerp", "src/dual_quaternion.rs:transform_point", "src/dual_quaternion.rs:div", "src/dual_quaternion.rs:pow", "src/transformations.rs:matrix_exponential6", "src/transformations.rs:matrix_log", "src/matrix3x3.rs:inverse", "src/matrix3x3.rs:lu"]}
{"id": "C149", "title": "IEEE: a NaN never disappears in the arithmetic functions", "statement": "A NaN entry makes the determinant NaN whatever the other entries are; a NaN in row i of the left or column j of the right factor makes row i or column j of the product NaN, and likewise for products with vectors, dot products, trace and norms. inverse() of a matrix with a NaN is Some of a matrix of NaNs only, normalize() of a vector with a NaN Ok of NaNs only, the solution of a linear system NaNs only. A NaN component of a quaternion reaches all components of products, rotated vectors, rotation matrix, normalize and inverse; in dual quaternions a NaN in a dual part stays in the dual part. The functions that do lose a NaN answer as stated: normalize_q with the x axis marked normalised, distance_to_manifold with infinity, the rotation tests with false, matrix_exponential with the identity and matrix_log with zero when the entries they look at say so.", "quantifier": "all binary formats; all matrices of sizes 2 to 6, vectors, quaternions and dual quaternions with a NaN anywhere, other entries arbitrary", "why_tests_cant": "A test puts a NaN in one place; that no position and no combination of the other entries lets it vanish is about all of them.", "anchors": ["src/matrix2x2.rs:det", "src/matrix6x6.rs:det", "src/matrix6x6.rs:inverse", "src/matrix4x4.rs:mul", "src/vector3.rs:normalize", "src/quaternion.rs:mul", "src/quaternion.rs:normalize_q", "src/dual_quaternion.rs:mul", "src/transformations.rs:distance_to_manifold", "src/utils.rs:is_rotation"]}
{"id": "C150", "title": "IEEE: normalised dual quaternions", "statement": "In floating point, normalising a dual quaternion gives a real part of norm 1 and divides the dual part by the same number, up to rounding; is_normalized accepts what is normalised up to rounding and nothing that is not, so products of normalised dual quaternions are recognised as normalised; comparing dual quaternions is symmetric, and reflexive exactly in the absence of NaN.", "quantifier": "all float formats of sufficient precision, all libraries, all dual quaternions without overflow or underflow in the norm of the real part; all pairs for the comparison", "why_tests_cant": "Tests normalise a few dual quaternions and compare against tolerances far above the machine epsilon that is_normalized uses; whether rounding errors of a product stay within that epsilon depends on the inputs.", "anchors": ["src/dual_quaternion.rs:normalize", "src/dual_quaternion.rs:is_normalized", "src/dual_quaternion.rs:Mul", "src/utils.rs:compare_dual_quaternions"]}
{"id": "C151", "title": "IEEE: real powers and the derivative of quaternions", "statement": "For an unflagged quaternion q of norm between 1/3 and 3, or one flagged as normalised whose norm is one up to delta, there is one logarithm l with exp(l) = q up to (4 eps + 95u + 2 delta)|q| such that for every exponent t between -2 and 2 the computed q.pow(t) is finite and is exp(t l) up to 10 eps + 460u relative to its norm. So q.pow(1) is q, q.pow(2) is q*q, q.pow(0) is 1 and q.pow(-1)*q is 1 up to a stated multiple of the rounding unit, also when q is close to -1. derivative(w) is half the product of w and q up to 5u|w||q| plus underflow, is finite when 8 B^2 does not overflow, and is orthogonal to q up to the same error.", "quantifier": "all binary formats of at least 8 bits with the stated exponent range; all mathematical libraries with error eps up to 1/64; all quaternions and exponents in the stated ranges", "why_tests_cant": "A test takes a few powers; that no direction, no angle near pi and no exponent in between loses accuracy is about all of them.", "anchors": ["src/quaternion.rs:pow", "src/quaternion.rs:ln", "src/quaternion.rs:exp", "src/quaternion.rs:new_real", "src/quaternion.rs:derivative", "src/quaternion.rs:mul"]}
{"id": "C152", "title": "IEEE: inverse times matrix is the identity up to rounding", "statement": "For an n x n matrix (n = 2..6) with entries of size at most b (b at least 1) whose computed determinant D and inverse B are finite, both A*B and B*A are the identity up to C_n u n! b^n / |D| in every entry (C_n = 5, 10, 34, 154, 860), and so is the product the library computes, with a slightly larger constant. The solution inverse(A)*v computed for a linear system satisfies the system up to n (C_n + n + 1) u n! b^n / |D| times the largest entry of v plus underflow.", "quantifier": "all binary formats of at least 16 bits; all matrices of sizes 2 to 6 whose computed determinant and inverse are finite and whose entries are within the stated exponent range; all right hand sides", "why_tests_cant": "A test inverts a few well conditioned matrices; how the residual grows as the determinant gets small needs a bound for all.", "anchors": ["src/matrix2x2.rs:inverse", "src/matrix3x3.rs:inverse", "src/matrix4x4.rs:inverse", "src/matrix5x5.rs:inverse", "src/matrix6x6.rs:inverse", "src/matrix2x2.rs:mul", "src/matrix6x6.rs:mul", "examples/inverse.rs", "examples/solve_linear_system.rs"]}
{"id": "C153", "title": "IEEE: the pose test accepts rounded poses", "statement": "is_rotation_h answers true for every float matrix whose last row is 0 0 0 1 and whose rotation block is within 1e-8 (Frobenius norm) of a rotation, whatever the translation within the stated range, so for every pose that was computed with a few hundred roundings in f64; unlike is_rotation, whose tolerance rounding exceeds (C125). Conversely an accepted matrix has two finite computed determinants (of itself and of its square) within 2.01e-6 of one, and its exact determinant is within that and the rounding error of the determinant of one.", "quantifier": "all binary formats of at least 32 bits of precision for acceptance and 24 for the converse, with a correctly rounded literal 1e-6; all matrices in the stated range", "why_tests_cant": "A test tries one pose; whether rounding can push the determinant of some pose, or of its square, over the tolerance is about all poses.", "anchors": ["src/utils.rs:is_rotation_h", "src/utils.rs:nearly_equal", "src/matrix4x4.rs:det", "src/matrix4x4.rs:mul"]}
{"id": "C154", "title": "IEEE: vector times matrix, traces and norms", "statement": "In floating point every component of vector * matrix is the exact one up to n roundings relative to the sum of the absolute products (for V3 the code forms matrix * vector instead, C04); the trace is the exact one up to n-1 roundings relative to the sum of the absolute diagonal entries; norm2 of vectors and of 2x2, 3x3, 4x4 matrices is never negative and, also where squares underflow, within n+1 (n*n+1) relative roundings and a stated absolute term of the exact norm, and it is finite whenever the entries are below a stated bound.", "quantifier": "all binary formats (at least 8 bits of precision for the norms), all float vectors and matrices whose result is finite", "why_tests_cant": "Tests compare a few values to a tolerance; the bound holds for every input and rounding pattern, including underflow.", "anchors": ["src/vector3.rs:mul", "src/vector6.rs:mul", "src/matrix3x3.rs:norm2", "src/matrix4x4.rs:norm2", "src/matrix4x4.rs:trace"]}
{"id": "C155", "title": "IEEE: the distance to the rotations", "statement": "A finite distance_to_manifold(A) is the Frobenius norm of A A^T - 1 up to eleven relative roundings and an absolute error of a few roundings of the squared norm of A, and the computed determinant was positive; a float matrix within eps <= 1/1000 of a rotation gets a finite distance of at most 2.01 eps plus 13 roundings.", "quantifier": "all binary formats of at least 8 (16) bits of precision, all float 3x3 matrices", "why_tests_cant": "A test evaluates it on one rotation; whether rounding can make it report infinity or a large distance for some near-rotation is about all of them.", "anchors": ["src/transformations.rs:distance_to_manifold", "src/matrix3x3.rs:norm2", "src/matrix3x3.rs:det"]}
{"id": "C156", "title": "IEEE: the logarithm of a rigid motion", "statement": "matrix_log6 of a float pose close to the exponential of a twist X gives back X: with sin N >= 1/64 for the angle N, translation entries of the pose at most P <= 12 and errors delta of the pose, eps of the library functions and u of rounding summing to at most sin^3 N / 400, the rotation block is within 74 (delta+eps+u)/sin^2 N and the translation within 1720 P (delta+eps+u)/sin^2 N; matrix_log6 after matrix_exponential6 gives back the twist within a stated bound; the last row is exactly zero and the rotation block is that of matrix_log for every input, NaN included; a pose whose rotation block is exactly the identity gives its translation back bit for bit.", "quantifier": "all binary formats of at least 8 bits of precision, all library functions of stated accuracy, all twists of angle below pi with sine at least 1/64 and all float poses near their exponential; structure: all float matrices", "why_tests_cant": "Tests compare one or two poses to a tolerance; the growth of the error with the angle over all poses, and that NaN never reaches the last row, are beyond sampling.", "anchors": ["src/transformations.rs:matrix_log6", "src/transformations.rs:matrix_log", "src/transformations.rs:matrix_exponential6"]}
{"id": "C157", "title": "Exact extent of further deviations", "statement": "Necessary and sufficient conditions for the remaining functions that deviate from their description: euler_to_rotation(YZX) is the named product exactly when the computed rotation fixes (1,1,1); rotation_to_euler then euler_to_rotation gives the matrix back exactly when the pitch is outside a relative EPSILON of a quarter turn or the roll is zero; matrix_log6 is a logarithm exactly outside the half turns about (nearly) the x axis and matrix_exponential6 undoes it exactly when moreover the angle is at least EPSILON; screw_lerp starts at its first argument exactly when the sign is kept or the argument does not translate, and ends at its second exactly when the turn is at least EPSILON or the motions are equal; is_normalized answers by the flag and the norm of the real part alone; inverse of a flagged dual quaternion is an inverse exactly for unit ones; compare_vecs compares the common prefix.", "quantifier": "all angles, all rotation matrices, all rigid motions, all pairs of unit dual quaternions with quotient not -1, all dual quaternions with dual components at most a third of the largest float, all slices", "why_tests_cant": "Each claim says for which of infinitely many inputs a known deviation shows; tests can only exhibit single inputs on either side.", "anchors": ["src/transformations.rs:euler_to_rotation", "src/transformations.rs:rotation_to_euler", "src/transformations.rs:matrix_log6", "src/dual_quaternion.rs:screw_lerp", "src/dual_quaternion.rs:is_normalized", "src/dual_quaternion.rs:inverse", "src/utils.rs:compare_vecs"]}
{"id": "C158", "title": "Quaternion sine, cosine and direction in floating point", "statement": "In IEEE arithmetic sums and differences of quaternions have relative error at most u, and multiples and quotients by a number relative error u plus one underflow; argq returns the direction of the imaginary part up to 5u, flagged as normalised, and exactly the first imaginary unit for real quaternions; cos and sin are finite, sin does not panic, and they are cos a cosh n - sin a (sinh n / n) v and sin a cosh n + cos a (sinh n / n) v up to 7 eps + 450u and 8 eps + 490u relative to cosh n, where a is the real part, v the imaginary part, n its norm and eps the accuracy of the elementary functions.", "quantifier": "every binary format of at least sixteen digits with the range of f32 or more, every quaternion of finite components with real part between -6 and 6 and imaginary part zero or of norm between 1/4 and 3, every math library of accuracy eps at most 1/64", "why_tests_cant": "Rounding behaviour over a continuum of quaternions and all conforming libraries; the formula normalises, multiplies, exponentiates, adds and divides, and tests sample single inputs.", "anchors": ["src/quaternion.rs:sin", "src/quaternion.rs:cos", "src/quaternion.rs:argq", "src/quaternion.rs:add", "src/quaternion.rs:sub"]}
{"id": "C159", "title": "Screw axis of a twist and dual quaternion sums in floating point", "statement": "In IEEE arithmetic axis_angle6 of a twist whose rotation part is longer than the machine epsilon returns as angle the length of the rotation part and as axis the twist divided by it, up to 5u; for a twist without rotation part it returns the length of the translation part and an axis with exactly zero rotation part; in both cases axis times angle gives every component of the twist back up to u and one underflow; the zero twist gives angle zero and an axis of NaN. Sums and differences of dual quaternions have relative error at most u in both parts, multiples u plus one underflow, and negation is exact.", "quantifier": "every binary format of at least eight digits, every twist whose squares neither overflow nor underflow, every pair of dual quaternions and every number for which the results are finite", "why_tests_cant": "Which branch is taken depends on a rounded norm compared with EPSILON, and the error statement quantifies over a continuum of inputs; unit tests sample single twists.", "anchors": ["src/transformations.rs:axis_angle6", "src/dual_quaternion.rs:add", "src/dual_quaternion.rs:sub", "src/dual_quaternion.rs:mul"]}
{"id": "C160", "title": "Rotating by computed quaternions and the quaternion example program in floating point", "statement": "In IEEE arithmetic a vector with components of size at most B, multiplied by a computed quaternion within d of a unit quaternion Q, does not overflow and gives every component of Q v Q* up to B (7.4 d + 74 u), also when components of the computed quaternion exceed one. The quaternion example program, which multiplies the quaternion of axis times angle four times with itself and applies it, prints the vector rotated by four times the angle, up to B (70 e + (189 N + 926) u) with e the accuracy of sin and cos and N the length of axis times angle; for a quarter turn, as in the program, it prints the vector it started from, up to B (70 e + 1310 u).", "quantifier": "every binary format of at least eight (for the program sixteen) digits, every quaternion within 1/8 of a unit quaternion, every vector with 20 B below the overflow threshold, every axis and angle whose product is no longer than 64 and whose squares do not underflow, every sin and cos of accuracy at most 1/128", "why_tests_cant": "The error of the fourth power accumulates through three rounded products of already perturbed factors; a unit test prints one vector for one angle.", "anchors": ["src/quaternion.rs:mul", "src/quaternion.rs:rotation_norm_encoded", "examples/quaternions.rs:main"]}
{"id": "C161", "title": "Transforming points with dual quaternions and the dual quaternion example programs in floating point", "statement": "In IEEE arithmetic transform_point of a dual quaternion within d of a rigid motion, applied to a point no further than P from the origin, gives every coordinate of the exactly rotated point up to 3 P ((1 + d)^2 (1 + 11 u)^2 - 1), and the dual number norm of that dual quaternion is 1 up to (1 + d)^2 (1 + 11 u) - 1. The three dual quaternion example programs terminate without a panic and print what they claim: the screw program reports the line, angle and distance of the screw motion its inputs describe (for the z axis, as in the program, the z axis, moment zero, and the angle and distance that went in); the point program gives the rotated point by the homogeneous matrix and by the dual quaternion made from it, up to 13400 P (e + u), with fourth component 0; the last program returns a matrix within 6650 e + 10842 u of the one it converted, and the three ways of composing rotation and translation agree with dual quaternions of the same exact motion.", "quantifier": "every binary format of at least eleven digits and wide exponent range, every finite angles, translations of length at most 2 P and points of length at most P with 16 (2 + 6 P)^2 below 2^emax, library functions of accuracy e with e + u at most 1/52000; for the screw program sin (N/2) at least 4096 times the combined error, N the angle", "why_tests_cant": "Every value printed passes through up to forty rounded operations and two conversions; a unit test or example run shows one input in one precision.", "anchors": ["src/dual_quaternion.rs:transform_point", "src/dual_quaternion.rs:norm", "examples/dual_quaternion_screw_parameters.rs:main", "examples/dual_quaternion_transform_point.rs:main", "examples/dual_quaternions.rs:main"]}
{"id": "C162", "title": "Axis and angle of a computed quaternion, and back", "statement": "In IEEE arithmetic get_axis and axis_angle of a quaternion whose components are within e of the rotation by an angle t in [0, 2 pi] about a unit vector return Some axis, within 750 (e + a + u) / sin (t/2) of that vector, and the angle within 82 (e + a + u) of t, where a is the accuracy of the library functions; for a quaternion that rotation built from floats they return the direction of the vector and the angle that went in. Passing axis and angle to rotation again succeeds and gives the quaternion back up to 2460 (e + a + u) in every component, however small the angle is in the range considered. abs_imag is the length of the vector part with relative error 5 u and absolute error 2 u^2.", "quantifier": "every binary format of at least eight digits and wide exponent range, every quaternion within e of a rotation, flagged as normalized or not, with 6400 (e + a + u) at most sin (t/2) (32768 for the round trip); abs_imag: every finite vector part of length at most 9", "why_tests_cant": "The axis is a quotient of two small computed numbers when the angle is small; how far the result may be off and when it is Some is a question about all quaternions and all formats.", "anchors": ["src/quaternion.rs:get_axis", "src/quaternion.rs:axis_angle", "src/quaternion.rs:rotation", "src/quaternion.rs:abs_imag"]}
{"id": "C163", "title": "How far a flagged quaternion can be from norm one, in every program", "statement": "Whatever a program computes with the public quaternion functions and operators, in any order and without restriction on the arguments of exp, sqrt and pow, a quaternion flagged as normalized has norm one up to 11/10 EPSILON. Consequently inverse, whenever it returns Some, and division, whenever it does not panic, are right up to 3 EPSILON (relative to the dividend) for every such quaternion. The flag of exp is off exactly as follows: the flagged result has norm one iff e^(2 r) (cos^2 n + n^2) = 1 for real part r and vector part of length n; for r at least 0 only at zero.", "quantifier": "every finite sequence of calls; exact real arithmetic, every EPSILON in (0, 10^-6]", "why_tests_cant": "The flag is set and passed on by different functions; only an induction over all call sequences shows that no sequence makes the error grow.", "anchors": ["src/quaternion.rs:exp", "src/quaternion.rs:normalize", "src/quaternion.rs:inverse", "src/quaternion.rs:sqrt", "src/quaternion.rs:pow", "src/quaternion.rs:slerp", "src/quaternion.rs:div"]}
{"id": "C164", "title": "Every program of rigid motions, with dual quaternions and with matrices", "statement": "Take any program that makes rigid motions (the identity, a rotation about a nonzero axis, Euler angles, a rotation matrix, a translation, a unit quaternion and a translation, a homogeneous matrix, screw parameters of a line) and combines them by products, inverse, conj, negation, normalize and conversion to a homogeneous matrix and back. Run with dual quaternions it never panics, and it computes the same rigid motion as the same program run with homogeneous matrices (Rodrigues, rotz roty rotx, translation_3d, homogeneous_from_quaternion, matrix_exponential6, products and the general 4 by 4 inverse, homogeneous_inverse), which never panics either. Two programs compute the same matrix exactly if they compute the same dual quaternion up to sign.", "quantifier": "every program (expressions of any size), all valid arguments; screw angles at least EPSILON; exact real arithmetic, every EPSILON in (0, 10^-6]", "why_tests_cant": "A test runs a few fixed compositions; that the two representations stay in step is an induction over all programs.", "anchors": ["src/dual_quaternion.rs:mul", "src/dual_quaternion.rs:inverse", "src/dual_quaternion.rs:conj", "src/dual_quaternion.rs:normalize", "src/dual_quaternion.rs:to_homogeneous", "src/dual_quaternion.rs:new_from_homogeneous", "src/dual_quaternion.rs:new_from_screw_parameters", "src/transformations.rs:homogeneous_inverse", "src/matrix4x4.rs:inverse"]}
{"id": "C165", "title": "Every program of rotations in floating point", "statement": "Take any program of products, quotients, conj, negation, inverse and normalize on quaternions of floats that are finite and within delta of unit quaternions, with any flags. It runs without a panic and without overflow, and its result is within ((1 + delta)(1 + 9u))^w - 1 of the exact unit quaternion, where w counts the leaves, those under inverse, normalize and in a divisor twice; as long as this is at most 1/2. Rotating a vector with entries at most B with the result is off by at most B (37/5 of that + 74u) if that is at most 1/8.", "quantifier": "every program (expressions of any size), all finite leaves, every format with p at least 8", "why_tests_cant": "Rounding errors add up over a program; tests see single operations and a few lengths.", "anchors": ["src/quaternion.rs:mul", "src/quaternion.rs:div", "src/quaternion.rs:conj", "src/quaternion.rs:inverse", "src/quaternion.rs:normalize"]}
{"id": "C166", "title": "Every program of rigid motions in floating point", "statement": "Take any program of products, conj, negation, inverse and normalize on dual quaternions of floats, with any flags, whose leaves are finite and within delta of rigid motions with dual parts of size at most P (P at least 1/8). It runs without a panic and without overflow, and its real part is within E = ((1 + delta)(1 + 11u))^w - 1 of the exact motion, its dual part within n P E, where n is the number of leaves and w counts them, five times for each inverse and four times for each normalize above; as long as E is at most 1/2 and 16 (2 + 2 n P)^2 is at most 2^emax. If E is at most 22/100, the rotation entries of to_homogeneous of the result are within 5E + 17u of the entries of the product of the leaf matrices and their inverses, the translation within n P times that, and the last row is exactly 0 0 0 1.", "quantifier": "every program (expressions of any size), all finite leaves, every format with p at least 8", "why_tests_cant": "Rounding errors add up over a program and the dual part grows with it; tests see single operations on a few motions.", "anchors": ["src/dual_quaternion.rs:mul", "src/dual_quaternion.rs:conj", "src/dual_quaternion.rs:inverse", "src/dual_quaternion.rs:normalize", "src/dual_quaternion.rs:to_homogeneous"]}
{"id": "C167", "title": "Euler angles come back in floating point", "statement": "For finite float angles yaw, pitch, roll with cos(pitch) at least 64 (36 eps + 53u), where eps bounds the error of sin, cos, atan2 and the constant FRAC_PI_2, to_euler_angles of from_euler_angles gives finite angles that are the given ones up to whole turns, within 9/4 (eps + (105 eps + 156u) / cos(pitch)) for yaw and roll and 9/4 (211 eps + 348u) for pitch. More generally: rotation_to_euler of a float matrix within delta of the rotation of three real angles, and to_euler_angles of a float quaternion within delta of their unit quaternion, give these angles up to whole turns with errors in proportion to delta / cos(pitch) for yaw and roll and to delta for pitch.", "quantifier": "all finite angles, all float matrices and quaternions near a rotation, every format with p at least 9 (8 for matrices and quaternions), every accurate library", "why_tests_cant": "The error depends on how close the pitch is to a quarter turn; tests use a few angles far away from it.", "anchors": ["src/transformations.rs:rotation_to_euler", "src/quaternion.rs:to_euler_angles", "src/quaternion.rs:from_euler_angles", "examples/quaternions.rs:main"]}
{"id": "C168", "title": "Every program of homogeneous matrices in floating point, and agreement with dual quaternions", "statement": "Take any program of products and homogeneous_inverse on float matrices within delta of rigid motions (also with a reflection) with translations no longer than P (at least 1/8). It runs without overflow; its rotation block is within E = ((1 + delta)(1 + 13u))^w - 1 of the exact one in the Frobenius norm, the translation within n P E, and the last row is exactly 0 0 0 1, where n is the number of leaves and w counts them, twice for each inverse above; as long as E is at most 1. Moreover any program of products, conj, negation, inverse and normalize run on float dual quaternions and converted with to_homogeneous at the end, and the same program run on the float matrices of its leaves (conj and inverse as homogeneous_inverse) give the same matrix up to the sum of the two errors.", "quantifier": "every program (expressions of any size), all float matrices and dual quaternions near rigid motions, every format with p at least 8", "why_tests_cant": "The two representations round differently; tests compare them for single operations on a few motions.", "anchors": ["src/matrix4x4.rs:mul", "src/transformations.rs:homogeneous_inverse", "src/dual_quaternion.rs:mul", "src/dual_quaternion.rs:inverse", "src/dual_quaternion.rs:to_homogeneous"]}
{"id": "C169", "title": "Every program of rotation matrices in floating point, and agreement with quaternions", "statement": "Take any program of products, transposes and rotation_inverse on float 3x3 matrices within delta (Frobenius norm) of orthogonal matrices. It runs without overflow, and its result is within ((1 + delta)(1 + 10u))^n - 1 of the exact orthogonal matrix, n the number of leaves, as long as this is at most 1. Moreover any program of products, quotients, conj, negation, inverse and normalize run on float quaternions and converted with to_rotation at the end, and the same program run on the float rotation matrices of its leaves (quotient as product with the inverse, negation and normalization dropped) give the same matrix up to the sum of the two errors.", "quantifier": "every program (expressions of any size), all float matrices near orthogonal ones and quaternions near unit ones, every format with p at least 8", "why_tests_cant": "The two representations round differently; tests compare them for single operations on a few rotations.", "anchors": ["src/matrix3x3.rs:mul", "src/matrix3x3.rs:transpose", "src/transformations.rs:rotation_inverse", "src/quaternion.rs:mul", "src/quaternion.rs:inverse", "src/quaternion.rs:to_rotation"]}

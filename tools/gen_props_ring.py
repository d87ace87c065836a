#!/usr/bin/env python3
"""Generate lean/Verif/Props/Ring.lean (C01-C07, C12, C26), one theorem per size."""
import sys
NS = range(2, 7)
out = ['''import Verif.Lemmas.Transfer
import Verif.Lemmas.Det
import Mathlib.Data.ZMod.Basic

/-!
# C01-C07, C12, C26: matrix algebra, determinant, trace

Generated by `tools/gen_props_ring.py` (the same statement for every size 2..6).
`R` is any commutative ring: exact reals, rationals, unbounded integers and wrapping machine
integers `ZMod (2^k)`.
-/

namespace StaticMath

variable {R : Type} [CommRing R]
''']

def sec(t): out.append('\n/-! ' + t + ' -/\n')

sec('## C01 The matrix product is the mathematical product')
for n in NS:
    M = f'M{n}{n}'
    out.append(f'''
theorem C01_mul_{M} (A B : Mat {n} R) (i j : Fin {n}) :
    {M}.mul A B i j = ∑ k, A i k * B k j :=
  {M}.mul_apply A B i j
''')
out.append('''
example : M22.mul ⟨![![1, 2], ![3, 4]]⟩ ⟨![![5, 6], ![7, 8]]⟩
    = (⟨![![19, 22], ![43, 50]]⟩ : Mat 2 ℤ) := by
  ext i j; fin_cases i <;> fin_cases j <;> rfl
/-- wrapping 8-bit integers are covered: `200 * 2 + 0` wraps to `144` -/
example : (M22.mul ⟨![![200, 0], ![0, 1]]⟩ ⟨![![2, 0], ![0, 1]]⟩ : Mat 2 (ZMod 256)) 0 0 = 144 := by
  rw [C01_mul_M22, Fin.sum_univ_two]; rfl
''')

sec('## C02 Matrices form a ring under the overloaded operators')
for n in NS:
    M = f'M{n}{n}'
    out.append(f'''
theorem C02_ring_{M} (A B C : Mat {n} R) :
    {M}.add ({M}.add A B) C = {M}.add A ({M}.add B C) ∧
    {M}.add A B = {M}.add B A ∧
    {M}.add A {M}.zero = A ∧
    {M}.add A ({M}.neg A) = {M}.zero ∧
    {M}.sub A B = {M}.add A ({M}.neg B) ∧
    {M}.mul ({M}.mul A B) C = {M}.mul A ({M}.mul B C) ∧
    {M}.mul A ({M}.add B C) = {M}.add ({M}.mul A B) ({M}.mul A C) ∧
    {M}.mul ({M}.add A B) C = {M}.add ({M}.mul A C) ({M}.mul B C) ∧
    {M}.mul A {M}.one = A ∧ {M}.mul {M}.one A = A ∧
    {M}.mul A {M}.zero = {M}.zero ∧ {M}.mul {M}.zero A = {M}.zero ∧
    {M}.add_assign A B = {M}.add A B ∧ {M}.sub_assign A B = {M}.sub A B := by
  simp only [← Mat.toM_inj, {M}.toM_mul, {M}.toM_add, {M}.toM_sub, {M}.toM_neg, {M}.toM_zero,
    {M}.toM_one, {M}.add_assign, {M}.sub_assign]
  refine ⟨add_assoc _ _ _, add_comm _ _, add_zero _, add_neg_cancel _, sub_eq_add_neg _ _,
    mul_assoc _ _ _, mul_add _ _ _, add_mul _ _ _, mul_one _, one_mul _, mul_zero _, zero_mul _,
    trivial, trivial⟩
''')
out.append('''
/-- the laws are about a genuinely non-commutative product -/
example : M22.mul ⟨![![0, 1], ![0, 0]]⟩ ⟨![![0, 0], ![1, 0]]⟩
    ≠ (M22.mul ⟨![![0, 0], ![1, 0]]⟩ ⟨![![0, 1], ![0, 0]]⟩ : Mat 2 ℤ) := by
  intro h
  exact absurd (congrArg (fun m : Mat 2 ℤ => m 0 0) h) (by decide)
''')

sec('## C03 Matrix-vector product')
for n in NS:
    M = f'M{n}{n}'; V = f'V{n}'
    out.append(f'''
theorem C03_mulVec_{M} (A B : Mat {n} R) (v w : Vec {n} R) (c : R) :
    (∀ i, {M}.mulVec A v i = ∑ k, A i k * v k) ∧
    {M}.mulVec ({M}.mul A B) v = {M}.mulVec A ({M}.mulVec B v) ∧
    {M}.mulVec A ({V}.add v w) = {V}.add ({M}.mulVec A v) ({M}.mulVec A w) ∧
    {M}.mulVec A ({V}.smul v c) = {V}.smul ({M}.mulVec A v) c ∧
    {M}.mulVec {M}.one v = v := by
  refine ⟨{M}.mulVec_apply A v, Vec.ext ?_, Vec.ext (funext fun i => ?_),
    Vec.ext (funext fun i => ?_), Vec.ext ?_⟩
  · simp only [{M}.val_mulVec, {M}.toM_mul, Matrix.mulVec_mulVec]
  · simp only [{M}.mulVec_apply, {V}.add_apply, mul_add, Finset.sum_add_distrib]
  · simp only [{M}.mulVec_apply, {V}.smul_apply, Finset.sum_mul, mul_assoc]
  · rw [{M}.val_mulVec, {M}.toM_one, Matrix.one_mulVec]
''')
out.append('''
example : M33.mulVec ⟨![![0, 0, 1], ![1, 0, 0], ![0, 1, 0]]⟩ ⟨![10, 20, 30]⟩
    = (⟨![30, 10, 20]⟩ : Vec 3 ℤ) := by
  ext i; fin_cases i <;> rfl
''')

sec('''## C04 Vector-matrix product is the row-vector product

True for V2, V4, V5, V6; false for V3 (`src/vector3.rs:202-211` computes `M*v`).''')
for n in NS:
    M = f'M{n}{n}'; V = f'V{n}'
    if n == 3: continue
    out.append(f'''
/-- C04 for size {n}; the full property also claims size 3, where it is false
(`C04_vecMul_V3_false`). -/
theorem C04_vecMul_{V}_partial (v w : Vec {n} R) (A : Mat {n} R) :
    (∀ j, {V}.mulMat v A j = ∑ i, v i * A i j) ∧
    {V}.dot ({V}.mulMat v A) w = {V}.dot v ({M}.mulVec A w) := by
  refine ⟨{V}.mulMat_apply v A, ?_⟩
  have h : ({V}.mulMat v A).val = Matrix.vecMul v.val A.toM := funext fun j => {V}.mulMat_apply v A j
  rw [{V}.dot_dotProduct, {V}.dot_dotProduct, {M}.val_mulVec, h, Matrix.dotProduct_mulVec]
''')
out.append('''
/-- What the code computes for V3: the column-vector product, with the operands exchanged. -/
theorem C04_vecMul_V3_is_mulVec (v : Vec 3 R) (A : Mat 3 R) : V3.mulMat v A = M33.mulVec A v := by
  ext i; fin_cases i <;> rfl

/-- C04 is false for V3, already for integer entries. -/
theorem C04_vecMul_V3_false :
    ∃ (v : Vec 3 ℤ) (A : Mat 3 ℤ) (j : Fin 3), V3.mulMat v A j ≠ ∑ i, v i * A i j :=
  ⟨⟨![1, 0, 0]⟩, ⟨![![0, 1, 0], ![0, 0, 0], ![0, 0, 0]]⟩, 1, by decide⟩

example : V2.mulMat ⟨![1, 10]⟩ ⟨![![1, 2], ![3, 4]]⟩ = (⟨![31, 42]⟩ : Vec 2 ℤ) := by
  ext i; fin_cases i <;> rfl
''')

sec('## C05 Transpose')
for n in NS:
    M = f'M{n}{n}'
    out.append(f'''
theorem C05_transpose_{M} {{T : Type}} (A : Mat {n} T) :
    (∀ i j, {M}.transpose A i j = A j i) ∧ {M}.transpose ({M}.transpose A) = A := by
  refine ⟨{M}.transpose_apply A, Mat.ext (funext fun i => funext fun j => ?_)⟩
  rw [{M}.transpose_apply, {M}.transpose_apply]

theorem C05_transpose_linear_{M} {{T : Type}} [Add T] [Mul T] (A B : Mat {n} T) (c : T) :
    {M}.transpose ({M}.add A B) = {M}.add ({M}.transpose A) ({M}.transpose B) ∧
    {M}.transpose ({M}.smul A c) = {M}.smul ({M}.transpose A) c := by
  constructor <;> refine Mat.ext (funext fun i => funext fun j => ?_)
  · simp only [{M}.transpose_apply, {M}.add_apply]
  · simp only [{M}.transpose_apply, {M}.smul_apply]

theorem C05_transpose_mul_{M} (A B : Mat {n} R) :
    {M}.transpose ({M}.mul A B) = {M}.mul ({M}.transpose B) ({M}.transpose A) := by
  simp only [← Mat.toM_inj, {M}.toM_mul, {M}.toM_transpose, Matrix.transpose_mul]
''')
out.append('''
example : M22.transpose ⟨![!["a", "b"], !["c", "d"]]⟩ = ⟨![!["a", "c"], !["b", "d"]]⟩ := by
  ext i j : 4; fin_cases i <;> fin_cases j <;> rfl
''')

sec('## C06 det is the Leibniz determinant')
for n in NS:
    M = f'M{n}{n}'
    out.append(f'''
theorem C06_det_{M} (A : Mat {n} R) :
    {M}.det A = ∑ σ : Equiv.Perm (Fin {n}), (Equiv.Perm.sign σ : ℤ) * ∏ i, A i (σ i) := by
  rw [{M}.det_eq, ← Matrix.det_transpose, Matrix.det_apply']
  rfl
''')
out.append('''
example : M33.det ⟨![![2, 0, 1], ![1, 3, 2], ![0, 1, 4]]⟩ = (21 : ℤ) := by decide
''')

sec('## C07 det is multiplicative')
for n in NS:
    M = f'M{n}{n}'
    out.append(f'''
theorem C07_det_{M} (A B : Mat {n} R) (c : R) :
    {M}.det ({M}.mul A B) = {M}.det A * {M}.det B ∧
    {M}.det ({M}.transpose A) = {M}.det A ∧
    {M}.det ({M}.one : Mat {n} R) = 1 ∧
    {M}.det ({M}.smul A c) = c ^ {n} * {M}.det A ∧
    {M}.det ({M}.neg A) = (-1) ^ {n} * {M}.det A ∧
    (∀ i j, i ≠ j → A.val i = A.val j → {M}.det A = 0) := by
  have hd (X : Mat {n} R) : {M}.det X = X.toM.det := {M}.det_eq X
  simp only [hd, {M}.toM_mul, {M}.toM_transpose, {M}.toM_one, {M}.toM_smul, {M}.toM_neg]
  refine ⟨Matrix.det_mul _ _, Matrix.det_transpose _, Matrix.det_one, ?_, ?_, fun i j h e => ?_⟩
  · rw [Matrix.det_smul, Fintype.card_fin]
  · rw [Matrix.det_neg, Fintype.card_fin]
  · exact Matrix.det_zero_of_row_eq h e
''')
out.append('''
/-- a matrix with two equal rows that is not zero -/
example : (⟨![![1, 2], ![1, 2]]⟩ : Mat 2 ℤ).val 0 = (⟨![![1, 2], ![1, 2]]⟩ : Mat 2 ℤ).val 1 := rfl
example : M22.det (M22.mul ⟨![![1, 2], ![3, 4]]⟩ ⟨![![2, 1], ![1, 1]]⟩) = (-2 : ℤ) := by decide
''')

sec('## C12 trace laws')
for n in NS:
    M = f'M{n}{n}'
    out.append(f'''
theorem C12_trace_{M} (A B : Mat {n} R) (c : R) :
    {M}.trace A = ∑ i, A i i ∧
    {M}.trace ({M}.add A B) = {M}.trace A + {M}.trace B ∧
    {M}.trace ({M}.smul A c) = {M}.trace A * c ∧
    {M}.trace ({M}.mul A B) = {M}.trace ({M}.mul B A) ∧
    {M}.trace ({M}.transpose A) = {M}.trace A ∧
    {M}.trace ({M}.one : Mat {n} R) = {n} := by
  refine ⟨{M}.trace_eq A, ?_⟩
  simp only [{M}.trace_toM, {M}.toM_mul, {M}.toM_transpose, {M}.toM_one, {M}.toM_smul, {M}.toM_add]
  refine ⟨Matrix.trace_add _ _, ?_, Matrix.trace_mul_comm _ _, Matrix.trace_transpose _, ?_⟩
  · rw [Matrix.trace_smul, smul_eq_mul, mul_comm]
  · rw [Matrix.trace_one, Fintype.card_fin]; rfl
''')
out.append('''
example : M33.trace ⟨![![1, 9, 9], ![9, 2, 9], ![9, 9, 3]]⟩ = (6 : ℤ) := by decide
''')

sec('## C26 Scalar multiplication and division of matrices')
for n in NS:
    M = f'M{n}{n}'
    left = ''
    leftp = ''
    out.append(f'''
theorem C26_smul_{M} (A B : Mat {n} R) (c : R) :
    (∀ i j, {M}.smul A c i j = A i j * c) ∧
    {M}.mul ({M}.smul A c) B = {M}.smul ({M}.mul A B) c ∧
    {M}.mul A ({M}.smul B c) = {M}.smul ({M}.mul A B) c := by
  refine ⟨{M}.smul_apply A c, ?_, ?_⟩ <;>
    simp only [← Mat.toM_inj, {M}.toM_mul, {M}.toM_smul, Matrix.smul_mul, Matrix.mul_smul]

theorem C26_sdiv_{M} {{F : Type}} [Field F] (A : Mat {n} F) (c : F) :
    (∀ i j, {M}.sdiv A c i j = A i j / c) ∧ (c ≠ 0 → {M}.smul ({M}.sdiv A c) c = A) := by
  refine ⟨{M}.sdiv_apply A c, fun h => Mat.ext (funext fun i => funext fun j => ?_)⟩
  rw [{M}.smul_apply, {M}.sdiv_apply, div_mul_cancel₀ _ h]
''')
out.append('''
/-- `f32 * M22`, `f32 * M33`, `f64 * M33` (the only float-on-the-left products of matrices). -/
theorem C26_left_M22 (A : Mat 2 R) (c : R) : M22.f32mul c A = M22.smul A c := by
  ext i j; fin_cases i <;> fin_cases j <;> rfl

theorem C26_left_M33 (A : Mat 3 R) (c : R) :
    M33.f32mul c A = M33.smul A c ∧ M33.f64mul c A = M33.smul A c := by
  constructor <;> ext i j <;> fin_cases i <;> fin_cases j <;> exact mul_comm _ _

example : M22.smul (M22.sdiv ⟨![![1, 2], ![3, 4]]⟩ (3 : ℚ)) 3 = ⟨![![1, 2], ![3, 4]]⟩ :=
  (C26_sdiv_M22 _ _).2 (by norm_num)
''')
out.append('\nend StaticMath\n')
open(sys.argv[1], 'w').write(''.join(out))

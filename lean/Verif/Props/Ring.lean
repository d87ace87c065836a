import Verif.Lemmas.Transfer
import Verif.Lemmas.Det
import Mathlib.Data.ZMod.Basic

/-!
# C01-C07, C12, C26: matrix algebra, determinant, trace

Generated by `tools/gen_props_ring.py` (the same statement for every size 2..6).
`R` is any commutative ring: exact reals, rationals, unbounded integers and wrapping machine
integers `ZMod (2^k)`.
-/

namespace StaticMath

variable {R : Type} [CommRing R]

/-! ## C01 The matrix product is the mathematical product -/

theorem C01_mul_M22 (A B : Mat 2 R) (i j : Fin 2) :
    M22.mul A B i j = ∑ k, A i k * B k j :=
  M22.mul_apply A B i j

theorem C01_mul_M33 (A B : Mat 3 R) (i j : Fin 3) :
    M33.mul A B i j = ∑ k, A i k * B k j :=
  M33.mul_apply A B i j

theorem C01_mul_M44 (A B : Mat 4 R) (i j : Fin 4) :
    M44.mul A B i j = ∑ k, A i k * B k j :=
  M44.mul_apply A B i j

theorem C01_mul_M55 (A B : Mat 5 R) (i j : Fin 5) :
    M55.mul A B i j = ∑ k, A i k * B k j :=
  M55.mul_apply A B i j

theorem C01_mul_M66 (A B : Mat 6 R) (i j : Fin 6) :
    M66.mul A B i j = ∑ k, A i k * B k j :=
  M66.mul_apply A B i j

example : M22.mul ⟨![![1, 2], ![3, 4]]⟩ ⟨![![5, 6], ![7, 8]]⟩
    = (⟨![![19, 22], ![43, 50]]⟩ : Mat 2 ℤ) := by
  ext i j; fin_cases i <;> fin_cases j <;> rfl
/-- wrapping 8-bit integers are covered: `200 * 2 + 0` wraps to `144` -/
example : (M22.mul ⟨![![200, 0], ![0, 1]]⟩ ⟨![![2, 0], ![0, 1]]⟩ : Mat 2 (ZMod 256)) 0 0 = 144 := by
  rw [C01_mul_M22, Fin.sum_univ_two]; rfl

/-! ## C02 Matrices form a ring under the overloaded operators -/

theorem C02_ring_M22 (A B C : Mat 2 R) :
    M22.add (M22.add A B) C = M22.add A (M22.add B C) ∧
    M22.add A B = M22.add B A ∧
    M22.add A M22.zero = A ∧
    M22.add A (M22.neg A) = M22.zero ∧
    M22.sub A B = M22.add A (M22.neg B) ∧
    M22.mul (M22.mul A B) C = M22.mul A (M22.mul B C) ∧
    M22.mul A (M22.add B C) = M22.add (M22.mul A B) (M22.mul A C) ∧
    M22.mul (M22.add A B) C = M22.add (M22.mul A C) (M22.mul B C) ∧
    M22.mul A M22.one = A ∧ M22.mul M22.one A = A ∧
    M22.mul A M22.zero = M22.zero ∧ M22.mul M22.zero A = M22.zero ∧
    M22.add_assign A B = M22.add A B ∧ M22.sub_assign A B = M22.sub A B := by
  simp only [← Mat.toM_inj, M22.toM_mul, M22.toM_add, M22.toM_sub, M22.toM_neg, M22.toM_zero,
    M22.toM_one, M22.add_assign, M22.sub_assign]
  refine ⟨add_assoc _ _ _, add_comm _ _, add_zero _, add_neg_cancel _, sub_eq_add_neg _ _,
    mul_assoc _ _ _, mul_add _ _ _, add_mul _ _ _, mul_one _, one_mul _, mul_zero _, zero_mul _,
    trivial, trivial⟩

theorem C02_ring_M33 (A B C : Mat 3 R) :
    M33.add (M33.add A B) C = M33.add A (M33.add B C) ∧
    M33.add A B = M33.add B A ∧
    M33.add A M33.zero = A ∧
    M33.add A (M33.neg A) = M33.zero ∧
    M33.sub A B = M33.add A (M33.neg B) ∧
    M33.mul (M33.mul A B) C = M33.mul A (M33.mul B C) ∧
    M33.mul A (M33.add B C) = M33.add (M33.mul A B) (M33.mul A C) ∧
    M33.mul (M33.add A B) C = M33.add (M33.mul A C) (M33.mul B C) ∧
    M33.mul A M33.one = A ∧ M33.mul M33.one A = A ∧
    M33.mul A M33.zero = M33.zero ∧ M33.mul M33.zero A = M33.zero ∧
    M33.add_assign A B = M33.add A B ∧ M33.sub_assign A B = M33.sub A B := by
  simp only [← Mat.toM_inj, M33.toM_mul, M33.toM_add, M33.toM_sub, M33.toM_neg, M33.toM_zero,
    M33.toM_one, M33.add_assign, M33.sub_assign]
  refine ⟨add_assoc _ _ _, add_comm _ _, add_zero _, add_neg_cancel _, sub_eq_add_neg _ _,
    mul_assoc _ _ _, mul_add _ _ _, add_mul _ _ _, mul_one _, one_mul _, mul_zero _, zero_mul _,
    trivial, trivial⟩

theorem C02_ring_M44 (A B C : Mat 4 R) :
    M44.add (M44.add A B) C = M44.add A (M44.add B C) ∧
    M44.add A B = M44.add B A ∧
    M44.add A M44.zero = A ∧
    M44.add A (M44.neg A) = M44.zero ∧
    M44.sub A B = M44.add A (M44.neg B) ∧
    M44.mul (M44.mul A B) C = M44.mul A (M44.mul B C) ∧
    M44.mul A (M44.add B C) = M44.add (M44.mul A B) (M44.mul A C) ∧
    M44.mul (M44.add A B) C = M44.add (M44.mul A C) (M44.mul B C) ∧
    M44.mul A M44.one = A ∧ M44.mul M44.one A = A ∧
    M44.mul A M44.zero = M44.zero ∧ M44.mul M44.zero A = M44.zero ∧
    M44.add_assign A B = M44.add A B ∧ M44.sub_assign A B = M44.sub A B := by
  simp only [← Mat.toM_inj, M44.toM_mul, M44.toM_add, M44.toM_sub, M44.toM_neg, M44.toM_zero,
    M44.toM_one, M44.add_assign, M44.sub_assign]
  refine ⟨add_assoc _ _ _, add_comm _ _, add_zero _, add_neg_cancel _, sub_eq_add_neg _ _,
    mul_assoc _ _ _, mul_add _ _ _, add_mul _ _ _, mul_one _, one_mul _, mul_zero _, zero_mul _,
    trivial, trivial⟩

theorem C02_ring_M55 (A B C : Mat 5 R) :
    M55.add (M55.add A B) C = M55.add A (M55.add B C) ∧
    M55.add A B = M55.add B A ∧
    M55.add A M55.zero = A ∧
    M55.add A (M55.neg A) = M55.zero ∧
    M55.sub A B = M55.add A (M55.neg B) ∧
    M55.mul (M55.mul A B) C = M55.mul A (M55.mul B C) ∧
    M55.mul A (M55.add B C) = M55.add (M55.mul A B) (M55.mul A C) ∧
    M55.mul (M55.add A B) C = M55.add (M55.mul A C) (M55.mul B C) ∧
    M55.mul A M55.one = A ∧ M55.mul M55.one A = A ∧
    M55.mul A M55.zero = M55.zero ∧ M55.mul M55.zero A = M55.zero ∧
    M55.add_assign A B = M55.add A B ∧ M55.sub_assign A B = M55.sub A B := by
  simp only [← Mat.toM_inj, M55.toM_mul, M55.toM_add, M55.toM_sub, M55.toM_neg, M55.toM_zero,
    M55.toM_one, M55.add_assign, M55.sub_assign]
  refine ⟨add_assoc _ _ _, add_comm _ _, add_zero _, add_neg_cancel _, sub_eq_add_neg _ _,
    mul_assoc _ _ _, mul_add _ _ _, add_mul _ _ _, mul_one _, one_mul _, mul_zero _, zero_mul _,
    trivial, trivial⟩

theorem C02_ring_M66 (A B C : Mat 6 R) :
    M66.add (M66.add A B) C = M66.add A (M66.add B C) ∧
    M66.add A B = M66.add B A ∧
    M66.add A M66.zero = A ∧
    M66.add A (M66.neg A) = M66.zero ∧
    M66.sub A B = M66.add A (M66.neg B) ∧
    M66.mul (M66.mul A B) C = M66.mul A (M66.mul B C) ∧
    M66.mul A (M66.add B C) = M66.add (M66.mul A B) (M66.mul A C) ∧
    M66.mul (M66.add A B) C = M66.add (M66.mul A C) (M66.mul B C) ∧
    M66.mul A M66.one = A ∧ M66.mul M66.one A = A ∧
    M66.mul A M66.zero = M66.zero ∧ M66.mul M66.zero A = M66.zero ∧
    M66.add_assign A B = M66.add A B ∧ M66.sub_assign A B = M66.sub A B := by
  simp only [← Mat.toM_inj, M66.toM_mul, M66.toM_add, M66.toM_sub, M66.toM_neg, M66.toM_zero,
    M66.toM_one, M66.add_assign, M66.sub_assign]
  refine ⟨add_assoc _ _ _, add_comm _ _, add_zero _, add_neg_cancel _, sub_eq_add_neg _ _,
    mul_assoc _ _ _, mul_add _ _ _, add_mul _ _ _, mul_one _, one_mul _, mul_zero _, zero_mul _,
    trivial, trivial⟩

/-- the laws are about a genuinely non-commutative product -/
example : M22.mul ⟨![![0, 1], ![0, 0]]⟩ ⟨![![0, 0], ![1, 0]]⟩
    ≠ (M22.mul ⟨![![0, 0], ![1, 0]]⟩ ⟨![![0, 1], ![0, 0]]⟩ : Mat 2 ℤ) := by
  intro h
  exact absurd (congrArg (fun m : Mat 2 ℤ => m 0 0) h) (by decide)

/-! ## C03 Matrix-vector product -/

theorem C03_mulVec_M22 (A B : Mat 2 R) (v w : Vec 2 R) (c : R) :
    (∀ i, M22.mulVec A v i = ∑ k, A i k * v k) ∧
    M22.mulVec (M22.mul A B) v = M22.mulVec A (M22.mulVec B v) ∧
    M22.mulVec A (V2.add v w) = V2.add (M22.mulVec A v) (M22.mulVec A w) ∧
    M22.mulVec A (V2.smul v c) = V2.smul (M22.mulVec A v) c ∧
    M22.mulVec M22.one v = v := by
  refine ⟨M22.mulVec_apply A v, Vec.ext ?_, Vec.ext (funext fun i => ?_),
    Vec.ext (funext fun i => ?_), Vec.ext ?_⟩
  · simp only [M22.val_mulVec, M22.toM_mul, Matrix.mulVec_mulVec]
  · simp only [M22.mulVec_apply, V2.add_apply, mul_add, Finset.sum_add_distrib]
  · simp only [M22.mulVec_apply, V2.smul_apply, Finset.sum_mul, mul_assoc]
  · rw [M22.val_mulVec, M22.toM_one, Matrix.one_mulVec]

theorem C03_mulVec_M33 (A B : Mat 3 R) (v w : Vec 3 R) (c : R) :
    (∀ i, M33.mulVec A v i = ∑ k, A i k * v k) ∧
    M33.mulVec (M33.mul A B) v = M33.mulVec A (M33.mulVec B v) ∧
    M33.mulVec A (V3.add v w) = V3.add (M33.mulVec A v) (M33.mulVec A w) ∧
    M33.mulVec A (V3.smul v c) = V3.smul (M33.mulVec A v) c ∧
    M33.mulVec M33.one v = v := by
  refine ⟨M33.mulVec_apply A v, Vec.ext ?_, Vec.ext (funext fun i => ?_),
    Vec.ext (funext fun i => ?_), Vec.ext ?_⟩
  · simp only [M33.val_mulVec, M33.toM_mul, Matrix.mulVec_mulVec]
  · simp only [M33.mulVec_apply, V3.add_apply, mul_add, Finset.sum_add_distrib]
  · simp only [M33.mulVec_apply, V3.smul_apply, Finset.sum_mul, mul_assoc]
  · rw [M33.val_mulVec, M33.toM_one, Matrix.one_mulVec]

theorem C03_mulVec_M44 (A B : Mat 4 R) (v w : Vec 4 R) (c : R) :
    (∀ i, M44.mulVec A v i = ∑ k, A i k * v k) ∧
    M44.mulVec (M44.mul A B) v = M44.mulVec A (M44.mulVec B v) ∧
    M44.mulVec A (V4.add v w) = V4.add (M44.mulVec A v) (M44.mulVec A w) ∧
    M44.mulVec A (V4.smul v c) = V4.smul (M44.mulVec A v) c ∧
    M44.mulVec M44.one v = v := by
  refine ⟨M44.mulVec_apply A v, Vec.ext ?_, Vec.ext (funext fun i => ?_),
    Vec.ext (funext fun i => ?_), Vec.ext ?_⟩
  · simp only [M44.val_mulVec, M44.toM_mul, Matrix.mulVec_mulVec]
  · simp only [M44.mulVec_apply, V4.add_apply, mul_add, Finset.sum_add_distrib]
  · simp only [M44.mulVec_apply, V4.smul_apply, Finset.sum_mul, mul_assoc]
  · rw [M44.val_mulVec, M44.toM_one, Matrix.one_mulVec]

theorem C03_mulVec_M55 (A B : Mat 5 R) (v w : Vec 5 R) (c : R) :
    (∀ i, M55.mulVec A v i = ∑ k, A i k * v k) ∧
    M55.mulVec (M55.mul A B) v = M55.mulVec A (M55.mulVec B v) ∧
    M55.mulVec A (V5.add v w) = V5.add (M55.mulVec A v) (M55.mulVec A w) ∧
    M55.mulVec A (V5.smul v c) = V5.smul (M55.mulVec A v) c ∧
    M55.mulVec M55.one v = v := by
  refine ⟨M55.mulVec_apply A v, Vec.ext ?_, Vec.ext (funext fun i => ?_),
    Vec.ext (funext fun i => ?_), Vec.ext ?_⟩
  · simp only [M55.val_mulVec, M55.toM_mul, Matrix.mulVec_mulVec]
  · simp only [M55.mulVec_apply, V5.add_apply, mul_add, Finset.sum_add_distrib]
  · simp only [M55.mulVec_apply, V5.smul_apply, Finset.sum_mul, mul_assoc]
  · rw [M55.val_mulVec, M55.toM_one, Matrix.one_mulVec]

theorem C03_mulVec_M66 (A B : Mat 6 R) (v w : Vec 6 R) (c : R) :
    (∀ i, M66.mulVec A v i = ∑ k, A i k * v k) ∧
    M66.mulVec (M66.mul A B) v = M66.mulVec A (M66.mulVec B v) ∧
    M66.mulVec A (V6.add v w) = V6.add (M66.mulVec A v) (M66.mulVec A w) ∧
    M66.mulVec A (V6.smul v c) = V6.smul (M66.mulVec A v) c ∧
    M66.mulVec M66.one v = v := by
  refine ⟨M66.mulVec_apply A v, Vec.ext ?_, Vec.ext (funext fun i => ?_),
    Vec.ext (funext fun i => ?_), Vec.ext ?_⟩
  · simp only [M66.val_mulVec, M66.toM_mul, Matrix.mulVec_mulVec]
  · simp only [M66.mulVec_apply, V6.add_apply, mul_add, Finset.sum_add_distrib]
  · simp only [M66.mulVec_apply, V6.smul_apply, Finset.sum_mul, mul_assoc]
  · rw [M66.val_mulVec, M66.toM_one, Matrix.one_mulVec]

example : M33.mulVec ⟨![![0, 0, 1], ![1, 0, 0], ![0, 1, 0]]⟩ ⟨![10, 20, 30]⟩
    = (⟨![30, 10, 20]⟩ : Vec 3 ℤ) := by
  ext i; fin_cases i <;> rfl

/-! ## C04 Vector-matrix product is the row-vector product

True for V2, V4, V5, V6; false for V3 (`src/vector3.rs:202-211` computes `M*v`). -/

/-- C04 for size 2; the full property also claims size 3, where it is false
(`C04_vecMul_V3_false`). -/
theorem C04_vecMul_V2_partial (v w : Vec 2 R) (A : Mat 2 R) :
    (∀ j, V2.mulMat v A j = ∑ i, v i * A i j) ∧
    V2.dot (V2.mulMat v A) w = V2.dot v (M22.mulVec A w) := by
  refine ⟨V2.mulMat_apply v A, ?_⟩
  have h : (V2.mulMat v A).val = Matrix.vecMul v.val A.toM := funext fun j => V2.mulMat_apply v A j
  rw [V2.dot_dotProduct, V2.dot_dotProduct, M22.val_mulVec, h, Matrix.dotProduct_mulVec]

/-- C04 for size 4; the full property also claims size 3, where it is false
(`C04_vecMul_V3_false`). -/
theorem C04_vecMul_V4_partial (v w : Vec 4 R) (A : Mat 4 R) :
    (∀ j, V4.mulMat v A j = ∑ i, v i * A i j) ∧
    V4.dot (V4.mulMat v A) w = V4.dot v (M44.mulVec A w) := by
  refine ⟨V4.mulMat_apply v A, ?_⟩
  have h : (V4.mulMat v A).val = Matrix.vecMul v.val A.toM := funext fun j => V4.mulMat_apply v A j
  rw [V4.dot_dotProduct, V4.dot_dotProduct, M44.val_mulVec, h, Matrix.dotProduct_mulVec]

/-- C04 for size 5; the full property also claims size 3, where it is false
(`C04_vecMul_V3_false`). -/
theorem C04_vecMul_V5_partial (v w : Vec 5 R) (A : Mat 5 R) :
    (∀ j, V5.mulMat v A j = ∑ i, v i * A i j) ∧
    V5.dot (V5.mulMat v A) w = V5.dot v (M55.mulVec A w) := by
  refine ⟨V5.mulMat_apply v A, ?_⟩
  have h : (V5.mulMat v A).val = Matrix.vecMul v.val A.toM := funext fun j => V5.mulMat_apply v A j
  rw [V5.dot_dotProduct, V5.dot_dotProduct, M55.val_mulVec, h, Matrix.dotProduct_mulVec]

/-- C04 for size 6; the full property also claims size 3, where it is false
(`C04_vecMul_V3_false`). -/
theorem C04_vecMul_V6_partial (v w : Vec 6 R) (A : Mat 6 R) :
    (∀ j, V6.mulMat v A j = ∑ i, v i * A i j) ∧
    V6.dot (V6.mulMat v A) w = V6.dot v (M66.mulVec A w) := by
  refine ⟨V6.mulMat_apply v A, ?_⟩
  have h : (V6.mulMat v A).val = Matrix.vecMul v.val A.toM := funext fun j => V6.mulMat_apply v A j
  rw [V6.dot_dotProduct, V6.dot_dotProduct, M66.val_mulVec, h, Matrix.dotProduct_mulVec]

/-- What the code computes for V3: the column-vector product, with the operands exchanged. -/
theorem C04_vecMul_V3_is_mulVec (v : Vec 3 R) (A : Mat 3 R) : V3.mulMat v A = M33.mulVec A v := by
  ext i; fin_cases i <;> rfl

/-- C04 is false for V3, already for integer entries. -/
theorem C04_vecMul_V3_false :
    ∃ (v : Vec 3 ℤ) (A : Mat 3 ℤ) (j : Fin 3), V3.mulMat v A j ≠ ∑ i, v i * A i j :=
  ⟨⟨![1, 0, 0]⟩, ⟨![![0, 1, 0], ![0, 0, 0], ![0, 0, 0]]⟩, 1, by decide⟩

example : V2.mulMat ⟨![1, 10]⟩ ⟨![![1, 2], ![3, 4]]⟩ = (⟨![31, 42]⟩ : Vec 2 ℤ) := by
  ext i; fin_cases i <;> rfl

/-! ## C05 Transpose -/

theorem C05_transpose_M22 {T : Type} (A : Mat 2 T) :
    (∀ i j, M22.transpose A i j = A j i) ∧ M22.transpose (M22.transpose A) = A := by
  refine ⟨M22.transpose_apply A, Mat.ext (funext fun i => funext fun j => ?_)⟩
  rw [M22.transpose_apply, M22.transpose_apply]

theorem C05_transpose_linear_M22 {T : Type} [Add T] [Mul T] (A B : Mat 2 T) (c : T) :
    M22.transpose (M22.add A B) = M22.add (M22.transpose A) (M22.transpose B) ∧
    M22.transpose (M22.smul A c) = M22.smul (M22.transpose A) c := by
  constructor <;> refine Mat.ext (funext fun i => funext fun j => ?_)
  · simp only [M22.transpose_apply, M22.add_apply]
  · simp only [M22.transpose_apply, M22.smul_apply]

theorem C05_transpose_mul_M22 (A B : Mat 2 R) :
    M22.transpose (M22.mul A B) = M22.mul (M22.transpose B) (M22.transpose A) := by
  simp only [← Mat.toM_inj, M22.toM_mul, M22.toM_transpose, Matrix.transpose_mul]

theorem C05_transpose_M33 {T : Type} (A : Mat 3 T) :
    (∀ i j, M33.transpose A i j = A j i) ∧ M33.transpose (M33.transpose A) = A := by
  refine ⟨M33.transpose_apply A, Mat.ext (funext fun i => funext fun j => ?_)⟩
  rw [M33.transpose_apply, M33.transpose_apply]

theorem C05_transpose_linear_M33 {T : Type} [Add T] [Mul T] (A B : Mat 3 T) (c : T) :
    M33.transpose (M33.add A B) = M33.add (M33.transpose A) (M33.transpose B) ∧
    M33.transpose (M33.smul A c) = M33.smul (M33.transpose A) c := by
  constructor <;> refine Mat.ext (funext fun i => funext fun j => ?_)
  · simp only [M33.transpose_apply, M33.add_apply]
  · simp only [M33.transpose_apply, M33.smul_apply]

theorem C05_transpose_mul_M33 (A B : Mat 3 R) :
    M33.transpose (M33.mul A B) = M33.mul (M33.transpose B) (M33.transpose A) := by
  simp only [← Mat.toM_inj, M33.toM_mul, M33.toM_transpose, Matrix.transpose_mul]

theorem C05_transpose_M44 {T : Type} (A : Mat 4 T) :
    (∀ i j, M44.transpose A i j = A j i) ∧ M44.transpose (M44.transpose A) = A := by
  refine ⟨M44.transpose_apply A, Mat.ext (funext fun i => funext fun j => ?_)⟩
  rw [M44.transpose_apply, M44.transpose_apply]

theorem C05_transpose_linear_M44 {T : Type} [Add T] [Mul T] (A B : Mat 4 T) (c : T) :
    M44.transpose (M44.add A B) = M44.add (M44.transpose A) (M44.transpose B) ∧
    M44.transpose (M44.smul A c) = M44.smul (M44.transpose A) c := by
  constructor <;> refine Mat.ext (funext fun i => funext fun j => ?_)
  · simp only [M44.transpose_apply, M44.add_apply]
  · simp only [M44.transpose_apply, M44.smul_apply]

theorem C05_transpose_mul_M44 (A B : Mat 4 R) :
    M44.transpose (M44.mul A B) = M44.mul (M44.transpose B) (M44.transpose A) := by
  simp only [← Mat.toM_inj, M44.toM_mul, M44.toM_transpose, Matrix.transpose_mul]

theorem C05_transpose_M55 {T : Type} (A : Mat 5 T) :
    (∀ i j, M55.transpose A i j = A j i) ∧ M55.transpose (M55.transpose A) = A := by
  refine ⟨M55.transpose_apply A, Mat.ext (funext fun i => funext fun j => ?_)⟩
  rw [M55.transpose_apply, M55.transpose_apply]

theorem C05_transpose_linear_M55 {T : Type} [Add T] [Mul T] (A B : Mat 5 T) (c : T) :
    M55.transpose (M55.add A B) = M55.add (M55.transpose A) (M55.transpose B) ∧
    M55.transpose (M55.smul A c) = M55.smul (M55.transpose A) c := by
  constructor <;> refine Mat.ext (funext fun i => funext fun j => ?_)
  · simp only [M55.transpose_apply, M55.add_apply]
  · simp only [M55.transpose_apply, M55.smul_apply]

theorem C05_transpose_mul_M55 (A B : Mat 5 R) :
    M55.transpose (M55.mul A B) = M55.mul (M55.transpose B) (M55.transpose A) := by
  simp only [← Mat.toM_inj, M55.toM_mul, M55.toM_transpose, Matrix.transpose_mul]

theorem C05_transpose_M66 {T : Type} (A : Mat 6 T) :
    (∀ i j, M66.transpose A i j = A j i) ∧ M66.transpose (M66.transpose A) = A := by
  refine ⟨M66.transpose_apply A, Mat.ext (funext fun i => funext fun j => ?_)⟩
  rw [M66.transpose_apply, M66.transpose_apply]

theorem C05_transpose_linear_M66 {T : Type} [Add T] [Mul T] (A B : Mat 6 T) (c : T) :
    M66.transpose (M66.add A B) = M66.add (M66.transpose A) (M66.transpose B) ∧
    M66.transpose (M66.smul A c) = M66.smul (M66.transpose A) c := by
  constructor <;> refine Mat.ext (funext fun i => funext fun j => ?_)
  · simp only [M66.transpose_apply, M66.add_apply]
  · simp only [M66.transpose_apply, M66.smul_apply]

theorem C05_transpose_mul_M66 (A B : Mat 6 R) :
    M66.transpose (M66.mul A B) = M66.mul (M66.transpose B) (M66.transpose A) := by
  simp only [← Mat.toM_inj, M66.toM_mul, M66.toM_transpose, Matrix.transpose_mul]

example : M22.transpose ⟨![!["a", "b"], !["c", "d"]]⟩ = ⟨![!["a", "c"], !["b", "d"]]⟩ := by
  ext i j : 4; fin_cases i <;> fin_cases j <;> rfl

/-! ## C06 det is the Leibniz determinant -/

theorem C06_det_M22 (A : Mat 2 R) :
    M22.det A = ∑ σ : Equiv.Perm (Fin 2), (Equiv.Perm.sign σ : ℤ) * ∏ i, A i (σ i) := by
  rw [M22.det_eq, ← Matrix.det_transpose, Matrix.det_apply']
  rfl

theorem C06_det_M33 (A : Mat 3 R) :
    M33.det A = ∑ σ : Equiv.Perm (Fin 3), (Equiv.Perm.sign σ : ℤ) * ∏ i, A i (σ i) := by
  rw [M33.det_eq, ← Matrix.det_transpose, Matrix.det_apply']
  rfl

theorem C06_det_M44 (A : Mat 4 R) :
    M44.det A = ∑ σ : Equiv.Perm (Fin 4), (Equiv.Perm.sign σ : ℤ) * ∏ i, A i (σ i) := by
  rw [M44.det_eq, ← Matrix.det_transpose, Matrix.det_apply']
  rfl

theorem C06_det_M55 (A : Mat 5 R) :
    M55.det A = ∑ σ : Equiv.Perm (Fin 5), (Equiv.Perm.sign σ : ℤ) * ∏ i, A i (σ i) := by
  rw [M55.det_eq, ← Matrix.det_transpose, Matrix.det_apply']
  rfl

theorem C06_det_M66 (A : Mat 6 R) :
    M66.det A = ∑ σ : Equiv.Perm (Fin 6), (Equiv.Perm.sign σ : ℤ) * ∏ i, A i (σ i) := by
  rw [M66.det_eq, ← Matrix.det_transpose, Matrix.det_apply']
  rfl

example : M33.det ⟨![![2, 0, 1], ![1, 3, 2], ![0, 1, 4]]⟩ = (21 : ℤ) := by decide

/-! ## C07 det is multiplicative -/

theorem C07_det_M22 (A B : Mat 2 R) (c : R) :
    M22.det (M22.mul A B) = M22.det A * M22.det B ∧
    M22.det (M22.transpose A) = M22.det A ∧
    M22.det (M22.one : Mat 2 R) = 1 ∧
    M22.det (M22.smul A c) = c ^ 2 * M22.det A ∧
    M22.det (M22.neg A) = (-1) ^ 2 * M22.det A ∧
    (∀ i j, i ≠ j → A.val i = A.val j → M22.det A = 0) := by
  have hd (X : Mat 2 R) : M22.det X = X.toM.det := M22.det_eq X
  simp only [hd, M22.toM_mul, M22.toM_transpose, M22.toM_one, M22.toM_smul, M22.toM_neg]
  refine ⟨Matrix.det_mul _ _, Matrix.det_transpose _, Matrix.det_one, ?_, ?_, fun i j h e => ?_⟩
  · rw [Matrix.det_smul, Fintype.card_fin]
  · rw [Matrix.det_neg, Fintype.card_fin]
  · exact Matrix.det_zero_of_row_eq h e

theorem C07_det_M33 (A B : Mat 3 R) (c : R) :
    M33.det (M33.mul A B) = M33.det A * M33.det B ∧
    M33.det (M33.transpose A) = M33.det A ∧
    M33.det (M33.one : Mat 3 R) = 1 ∧
    M33.det (M33.smul A c) = c ^ 3 * M33.det A ∧
    M33.det (M33.neg A) = (-1) ^ 3 * M33.det A ∧
    (∀ i j, i ≠ j → A.val i = A.val j → M33.det A = 0) := by
  have hd (X : Mat 3 R) : M33.det X = X.toM.det := M33.det_eq X
  simp only [hd, M33.toM_mul, M33.toM_transpose, M33.toM_one, M33.toM_smul, M33.toM_neg]
  refine ⟨Matrix.det_mul _ _, Matrix.det_transpose _, Matrix.det_one, ?_, ?_, fun i j h e => ?_⟩
  · rw [Matrix.det_smul, Fintype.card_fin]
  · rw [Matrix.det_neg, Fintype.card_fin]
  · exact Matrix.det_zero_of_row_eq h e

theorem C07_det_M44 (A B : Mat 4 R) (c : R) :
    M44.det (M44.mul A B) = M44.det A * M44.det B ∧
    M44.det (M44.transpose A) = M44.det A ∧
    M44.det (M44.one : Mat 4 R) = 1 ∧
    M44.det (M44.smul A c) = c ^ 4 * M44.det A ∧
    M44.det (M44.neg A) = (-1) ^ 4 * M44.det A ∧
    (∀ i j, i ≠ j → A.val i = A.val j → M44.det A = 0) := by
  have hd (X : Mat 4 R) : M44.det X = X.toM.det := M44.det_eq X
  simp only [hd, M44.toM_mul, M44.toM_transpose, M44.toM_one, M44.toM_smul, M44.toM_neg]
  refine ⟨Matrix.det_mul _ _, Matrix.det_transpose _, Matrix.det_one, ?_, ?_, fun i j h e => ?_⟩
  · rw [Matrix.det_smul, Fintype.card_fin]
  · rw [Matrix.det_neg, Fintype.card_fin]
  · exact Matrix.det_zero_of_row_eq h e

theorem C07_det_M55 (A B : Mat 5 R) (c : R) :
    M55.det (M55.mul A B) = M55.det A * M55.det B ∧
    M55.det (M55.transpose A) = M55.det A ∧
    M55.det (M55.one : Mat 5 R) = 1 ∧
    M55.det (M55.smul A c) = c ^ 5 * M55.det A ∧
    M55.det (M55.neg A) = (-1) ^ 5 * M55.det A ∧
    (∀ i j, i ≠ j → A.val i = A.val j → M55.det A = 0) := by
  have hd (X : Mat 5 R) : M55.det X = X.toM.det := M55.det_eq X
  simp only [hd, M55.toM_mul, M55.toM_transpose, M55.toM_one, M55.toM_smul, M55.toM_neg]
  refine ⟨Matrix.det_mul _ _, Matrix.det_transpose _, Matrix.det_one, ?_, ?_, fun i j h e => ?_⟩
  · rw [Matrix.det_smul, Fintype.card_fin]
  · rw [Matrix.det_neg, Fintype.card_fin]
  · exact Matrix.det_zero_of_row_eq h e

theorem C07_det_M66 (A B : Mat 6 R) (c : R) :
    M66.det (M66.mul A B) = M66.det A * M66.det B ∧
    M66.det (M66.transpose A) = M66.det A ∧
    M66.det (M66.one : Mat 6 R) = 1 ∧
    M66.det (M66.smul A c) = c ^ 6 * M66.det A ∧
    M66.det (M66.neg A) = (-1) ^ 6 * M66.det A ∧
    (∀ i j, i ≠ j → A.val i = A.val j → M66.det A = 0) := by
  have hd (X : Mat 6 R) : M66.det X = X.toM.det := M66.det_eq X
  simp only [hd, M66.toM_mul, M66.toM_transpose, M66.toM_one, M66.toM_smul, M66.toM_neg]
  refine ⟨Matrix.det_mul _ _, Matrix.det_transpose _, Matrix.det_one, ?_, ?_, fun i j h e => ?_⟩
  · rw [Matrix.det_smul, Fintype.card_fin]
  · rw [Matrix.det_neg, Fintype.card_fin]
  · exact Matrix.det_zero_of_row_eq h e

/-- a matrix with two equal rows that is not zero -/
example : (⟨![![1, 2], ![1, 2]]⟩ : Mat 2 ℤ).val 0 = (⟨![![1, 2], ![1, 2]]⟩ : Mat 2 ℤ).val 1 := rfl
example : M22.det (M22.mul ⟨![![1, 2], ![3, 4]]⟩ ⟨![![2, 1], ![1, 1]]⟩) = (-2 : ℤ) := by decide

/-! ## C12 trace laws -/

theorem C12_trace_M22 (A B : Mat 2 R) (c : R) :
    M22.trace A = ∑ i, A i i ∧
    M22.trace (M22.add A B) = M22.trace A + M22.trace B ∧
    M22.trace (M22.smul A c) = M22.trace A * c ∧
    M22.trace (M22.mul A B) = M22.trace (M22.mul B A) ∧
    M22.trace (M22.transpose A) = M22.trace A ∧
    M22.trace (M22.one : Mat 2 R) = 2 := by
  refine ⟨M22.trace_eq A, ?_⟩
  simp only [M22.trace_toM, M22.toM_mul, M22.toM_transpose, M22.toM_one, M22.toM_smul, M22.toM_add]
  refine ⟨Matrix.trace_add _ _, ?_, Matrix.trace_mul_comm _ _, Matrix.trace_transpose _, ?_⟩
  · rw [Matrix.trace_smul, smul_eq_mul, mul_comm]
  · rw [Matrix.trace_one, Fintype.card_fin]; rfl

theorem C12_trace_M33 (A B : Mat 3 R) (c : R) :
    M33.trace A = ∑ i, A i i ∧
    M33.trace (M33.add A B) = M33.trace A + M33.trace B ∧
    M33.trace (M33.smul A c) = M33.trace A * c ∧
    M33.trace (M33.mul A B) = M33.trace (M33.mul B A) ∧
    M33.trace (M33.transpose A) = M33.trace A ∧
    M33.trace (M33.one : Mat 3 R) = 3 := by
  refine ⟨M33.trace_eq A, ?_⟩
  simp only [M33.trace_toM, M33.toM_mul, M33.toM_transpose, M33.toM_one, M33.toM_smul, M33.toM_add]
  refine ⟨Matrix.trace_add _ _, ?_, Matrix.trace_mul_comm _ _, Matrix.trace_transpose _, ?_⟩
  · rw [Matrix.trace_smul, smul_eq_mul, mul_comm]
  · rw [Matrix.trace_one, Fintype.card_fin]; rfl

theorem C12_trace_M44 (A B : Mat 4 R) (c : R) :
    M44.trace A = ∑ i, A i i ∧
    M44.trace (M44.add A B) = M44.trace A + M44.trace B ∧
    M44.trace (M44.smul A c) = M44.trace A * c ∧
    M44.trace (M44.mul A B) = M44.trace (M44.mul B A) ∧
    M44.trace (M44.transpose A) = M44.trace A ∧
    M44.trace (M44.one : Mat 4 R) = 4 := by
  refine ⟨M44.trace_eq A, ?_⟩
  simp only [M44.trace_toM, M44.toM_mul, M44.toM_transpose, M44.toM_one, M44.toM_smul, M44.toM_add]
  refine ⟨Matrix.trace_add _ _, ?_, Matrix.trace_mul_comm _ _, Matrix.trace_transpose _, ?_⟩
  · rw [Matrix.trace_smul, smul_eq_mul, mul_comm]
  · rw [Matrix.trace_one, Fintype.card_fin]; rfl

theorem C12_trace_M55 (A B : Mat 5 R) (c : R) :
    M55.trace A = ∑ i, A i i ∧
    M55.trace (M55.add A B) = M55.trace A + M55.trace B ∧
    M55.trace (M55.smul A c) = M55.trace A * c ∧
    M55.trace (M55.mul A B) = M55.trace (M55.mul B A) ∧
    M55.trace (M55.transpose A) = M55.trace A ∧
    M55.trace (M55.one : Mat 5 R) = 5 := by
  refine ⟨M55.trace_eq A, ?_⟩
  simp only [M55.trace_toM, M55.toM_mul, M55.toM_transpose, M55.toM_one, M55.toM_smul, M55.toM_add]
  refine ⟨Matrix.trace_add _ _, ?_, Matrix.trace_mul_comm _ _, Matrix.trace_transpose _, ?_⟩
  · rw [Matrix.trace_smul, smul_eq_mul, mul_comm]
  · rw [Matrix.trace_one, Fintype.card_fin]; rfl

theorem C12_trace_M66 (A B : Mat 6 R) (c : R) :
    M66.trace A = ∑ i, A i i ∧
    M66.trace (M66.add A B) = M66.trace A + M66.trace B ∧
    M66.trace (M66.smul A c) = M66.trace A * c ∧
    M66.trace (M66.mul A B) = M66.trace (M66.mul B A) ∧
    M66.trace (M66.transpose A) = M66.trace A ∧
    M66.trace (M66.one : Mat 6 R) = 6 := by
  refine ⟨M66.trace_eq A, ?_⟩
  simp only [M66.trace_toM, M66.toM_mul, M66.toM_transpose, M66.toM_one, M66.toM_smul, M66.toM_add]
  refine ⟨Matrix.trace_add _ _, ?_, Matrix.trace_mul_comm _ _, Matrix.trace_transpose _, ?_⟩
  · rw [Matrix.trace_smul, smul_eq_mul, mul_comm]
  · rw [Matrix.trace_one, Fintype.card_fin]; rfl

example : M33.trace ⟨![![1, 9, 9], ![9, 2, 9], ![9, 9, 3]]⟩ = (6 : ℤ) := by decide

/-! ## C26 Scalar multiplication and division of matrices -/

theorem C26_smul_M22 (A B : Mat 2 R) (c : R) :
    (∀ i j, M22.smul A c i j = A i j * c) ∧
    M22.mul (M22.smul A c) B = M22.smul (M22.mul A B) c ∧
    M22.mul A (M22.smul B c) = M22.smul (M22.mul A B) c := by
  refine ⟨M22.smul_apply A c, ?_, ?_⟩ <;>
    simp only [← Mat.toM_inj, M22.toM_mul, M22.toM_smul, Matrix.smul_mul, Matrix.mul_smul]

theorem C26_sdiv_M22 {F : Type} [Field F] (A : Mat 2 F) (c : F) :
    (∀ i j, M22.sdiv A c i j = A i j / c) ∧ (c ≠ 0 → M22.smul (M22.sdiv A c) c = A) := by
  refine ⟨M22.sdiv_apply A c, fun h => Mat.ext (funext fun i => funext fun j => ?_)⟩
  rw [M22.smul_apply, M22.sdiv_apply, div_mul_cancel₀ _ h]

theorem C26_smul_M33 (A B : Mat 3 R) (c : R) :
    (∀ i j, M33.smul A c i j = A i j * c) ∧
    M33.mul (M33.smul A c) B = M33.smul (M33.mul A B) c ∧
    M33.mul A (M33.smul B c) = M33.smul (M33.mul A B) c := by
  refine ⟨M33.smul_apply A c, ?_, ?_⟩ <;>
    simp only [← Mat.toM_inj, M33.toM_mul, M33.toM_smul, Matrix.smul_mul, Matrix.mul_smul]

theorem C26_sdiv_M33 {F : Type} [Field F] (A : Mat 3 F) (c : F) :
    (∀ i j, M33.sdiv A c i j = A i j / c) ∧ (c ≠ 0 → M33.smul (M33.sdiv A c) c = A) := by
  refine ⟨M33.sdiv_apply A c, fun h => Mat.ext (funext fun i => funext fun j => ?_)⟩
  rw [M33.smul_apply, M33.sdiv_apply, div_mul_cancel₀ _ h]

theorem C26_smul_M44 (A B : Mat 4 R) (c : R) :
    (∀ i j, M44.smul A c i j = A i j * c) ∧
    M44.mul (M44.smul A c) B = M44.smul (M44.mul A B) c ∧
    M44.mul A (M44.smul B c) = M44.smul (M44.mul A B) c := by
  refine ⟨M44.smul_apply A c, ?_, ?_⟩ <;>
    simp only [← Mat.toM_inj, M44.toM_mul, M44.toM_smul, Matrix.smul_mul, Matrix.mul_smul]

theorem C26_sdiv_M44 {F : Type} [Field F] (A : Mat 4 F) (c : F) :
    (∀ i j, M44.sdiv A c i j = A i j / c) ∧ (c ≠ 0 → M44.smul (M44.sdiv A c) c = A) := by
  refine ⟨M44.sdiv_apply A c, fun h => Mat.ext (funext fun i => funext fun j => ?_)⟩
  rw [M44.smul_apply, M44.sdiv_apply, div_mul_cancel₀ _ h]

theorem C26_smul_M55 (A B : Mat 5 R) (c : R) :
    (∀ i j, M55.smul A c i j = A i j * c) ∧
    M55.mul (M55.smul A c) B = M55.smul (M55.mul A B) c ∧
    M55.mul A (M55.smul B c) = M55.smul (M55.mul A B) c := by
  refine ⟨M55.smul_apply A c, ?_, ?_⟩ <;>
    simp only [← Mat.toM_inj, M55.toM_mul, M55.toM_smul, Matrix.smul_mul, Matrix.mul_smul]

theorem C26_sdiv_M55 {F : Type} [Field F] (A : Mat 5 F) (c : F) :
    (∀ i j, M55.sdiv A c i j = A i j / c) ∧ (c ≠ 0 → M55.smul (M55.sdiv A c) c = A) := by
  refine ⟨M55.sdiv_apply A c, fun h => Mat.ext (funext fun i => funext fun j => ?_)⟩
  rw [M55.smul_apply, M55.sdiv_apply, div_mul_cancel₀ _ h]

theorem C26_smul_M66 (A B : Mat 6 R) (c : R) :
    (∀ i j, M66.smul A c i j = A i j * c) ∧
    M66.mul (M66.smul A c) B = M66.smul (M66.mul A B) c ∧
    M66.mul A (M66.smul B c) = M66.smul (M66.mul A B) c := by
  refine ⟨M66.smul_apply A c, ?_, ?_⟩ <;>
    simp only [← Mat.toM_inj, M66.toM_mul, M66.toM_smul, Matrix.smul_mul, Matrix.mul_smul]

theorem C26_sdiv_M66 {F : Type} [Field F] (A : Mat 6 F) (c : F) :
    (∀ i j, M66.sdiv A c i j = A i j / c) ∧ (c ≠ 0 → M66.smul (M66.sdiv A c) c = A) := by
  refine ⟨M66.sdiv_apply A c, fun h => Mat.ext (funext fun i => funext fun j => ?_)⟩
  rw [M66.smul_apply, M66.sdiv_apply, div_mul_cancel₀ _ h]

/-- `f32 * M22`, `f32 * M33`, `f64 * M33` (the only float-on-the-left products of matrices). -/
theorem C26_left_M22 (A : Mat 2 R) (c : R) : M22.f32mul c A = M22.smul A c := by
  ext i j; fin_cases i <;> fin_cases j <;> rfl

theorem C26_left_M33 (A : Mat 3 R) (c : R) :
    M33.f32mul c A = M33.smul A c ∧ M33.f64mul c A = M33.smul A c := by
  constructor <;> ext i j <;> fin_cases i <;> fin_cases j <;> exact mul_comm _ _

example : M22.smul (M22.sdiv ⟨![![1, 2], ![3, 4]]⟩ (3 : ℚ)) 3 = ⟨![![1, 2], ![3, 4]]⟩ :=
  (C26_sdiv_M22 _ _).2 (by norm_num)

end StaticMath

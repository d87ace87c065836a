import Verif.Props.Inverse
import Verif.Props.Qr
import Verif.Props.Compare
import Mathlib.LinearAlgebra.Matrix.Block

/-!
# C114–C116: laws of inverses, invariants under change of basis, uniqueness of QR

Generated by `tools/gen_props_laws.py` (the same statement for every size 2..6).
-/

namespace StaticMath

variable [P : RealParams]

omit P in
private theorem inv_unique {n : ℕ} {A X Y : Matrix (Fin n) (Fin n) ℝ} (h : X * A = 1) (h' : A * Y = 1) : X = Y := by
  calc X = X * (A * Y) := by rw [h', mul_one]
    _ = Y := by rw [← mul_assoc, h, one_mul]

private theorem M22.inverse_of (A X : Mat 2 ℝ) (h : P.eps ≤ |A.toM.det|) (hX : X.toM * A.toM = 1) :
    M22.inverse A = .ok (some X) := by
  obtain ⟨B, hB⟩ := C10_inverse_M22_partial A h
  have h1 := (C08_inverse_M22 A B hB).1
  rw [← Mat.toM_inj, M22.toM_mul, M22.toM_one] at h1
  rw [hB, show B = X from Mat.toM_injective (inv_unique hX h1).symm]

private theorem M22.of_inverse (A X : Mat 2 ℝ) (h : M22.inverse A = .ok (some X)) :
    P.eps ≤ |A.toM.det| ∧ X.toM * A.toM = 1 ∧ A.toM * X.toM = 1 := by
  have h1 := C08_inverse_M22 A X h
  rw [← Mat.toM_inj, ← Mat.toM_inj, M22.toM_mul, M22.toM_mul, M22.toM_one] at h1
  obtain ⟨o, ho, hn, -⟩ := C09_inverse_M22 A
  refine ⟨?_, h1.2, h1.1⟩
  by_contra hc
  rw [hn.2 (not_le.1 hc)] at ho
  rw [ho] at h
  cases h

private theorem M33.inverse_of (A X : Mat 3 ℝ) (h : P.eps ≤ |A.toM.det|) (hX : X.toM * A.toM = 1) :
    M33.inverse A = .ok (some X) := by
  obtain ⟨B, hB⟩ := C10_inverse_M33_partial A h
  have h1 := (C08_inverse_M33 A B hB).1
  rw [← Mat.toM_inj, M33.toM_mul, M33.toM_one] at h1
  rw [hB, show B = X from Mat.toM_injective (inv_unique hX h1).symm]

private theorem M33.of_inverse (A X : Mat 3 ℝ) (h : M33.inverse A = .ok (some X)) :
    P.eps ≤ |A.toM.det| ∧ X.toM * A.toM = 1 ∧ A.toM * X.toM = 1 := by
  have h1 := C08_inverse_M33 A X h
  rw [← Mat.toM_inj, ← Mat.toM_inj, M33.toM_mul, M33.toM_mul, M33.toM_one] at h1
  obtain ⟨o, ho, hn, -⟩ := C09_inverse_M33 A
  refine ⟨?_, h1.2, h1.1⟩
  by_contra hc
  rw [hn.2 (not_le.1 hc)] at ho
  rw [ho] at h
  cases h

private theorem M44.inverse_of (A X : Mat 4 ℝ) (h : P.eps ≤ |A.toM.det|) (hX : X.toM * A.toM = 1) :
    M44.inverse A = .ok (some X) := by
  obtain ⟨B, hB⟩ := C10_inverse_M44_partial A h
  have h1 := (C08_inverse_M44 A B hB).1
  rw [← Mat.toM_inj, M44.toM_mul, M44.toM_one] at h1
  rw [hB, show B = X from Mat.toM_injective (inv_unique hX h1).symm]

private theorem M44.of_inverse (A X : Mat 4 ℝ) (h : M44.inverse A = .ok (some X)) :
    P.eps ≤ |A.toM.det| ∧ X.toM * A.toM = 1 ∧ A.toM * X.toM = 1 := by
  have h1 := C08_inverse_M44 A X h
  rw [← Mat.toM_inj, ← Mat.toM_inj, M44.toM_mul, M44.toM_mul, M44.toM_one] at h1
  obtain ⟨o, ho, hn, -⟩ := C09_inverse_M44 A
  refine ⟨?_, h1.2, h1.1⟩
  by_contra hc
  rw [hn.2 (not_le.1 hc)] at ho
  rw [ho] at h
  cases h

private theorem M55.inverse_of (A X : Mat 5 ℝ) (h : P.eps ≤ |A.toM.det|) (hX : X.toM * A.toM = 1) :
    M55.inverse A = .ok (some X) := by
  obtain ⟨B, hB⟩ := C10_inverse_M55_partial A h
  have h1 := (C08_inverse_M55 A B hB).1
  rw [← Mat.toM_inj, M55.toM_mul, M55.toM_one] at h1
  rw [hB, show B = X from Mat.toM_injective (inv_unique hX h1).symm]

private theorem M55.of_inverse (A X : Mat 5 ℝ) (h : M55.inverse A = .ok (some X)) :
    P.eps ≤ |A.toM.det| ∧ X.toM * A.toM = 1 ∧ A.toM * X.toM = 1 := by
  have h1 := C08_inverse_M55 A X h
  rw [← Mat.toM_inj, ← Mat.toM_inj, M55.toM_mul, M55.toM_mul, M55.toM_one] at h1
  obtain ⟨o, ho, hn, -⟩ := C09_inverse_M55 A
  refine ⟨?_, h1.2, h1.1⟩
  by_contra hc
  rw [hn.2 (not_le.1 hc)] at ho
  rw [ho] at h
  cases h

private theorem M66.inverse_of (A X : Mat 6 ℝ) (h : P.eps ≤ |A.toM.det|) (hX : X.toM * A.toM = 1) :
    M66.inverse A = .ok (some X) := by
  obtain ⟨B, hB⟩ := C10_inverse_M66_partial A h
  have h1 := (C08_inverse_M66 A B hB).1
  rw [← Mat.toM_inj, M66.toM_mul, M66.toM_one] at h1
  rw [hB, show B = X from Mat.toM_injective (inv_unique hX h1).symm]

private theorem M66.of_inverse (A X : Mat 6 ℝ) (h : M66.inverse A = .ok (some X)) :
    P.eps ≤ |A.toM.det| ∧ X.toM * A.toM = 1 ∧ A.toM * X.toM = 1 := by
  have h1 := C08_inverse_M66 A X h
  rw [← Mat.toM_inj, ← Mat.toM_inj, M66.toM_mul, M66.toM_mul, M66.toM_one] at h1
  obtain ⟨o, ho, hn, -⟩ := C09_inverse_M66 A
  refine ⟨?_, h1.2, h1.1⟩
  by_contra hc
  rw [hn.2 (not_le.1 hc)] at ho
  rw [ho] at h
  cases h

/-! ## C114 laws of the inverse -/

/-- The inverse of a transpose, of an inverse, of a product and of a multiple; its determinant. `inverse`
refuses determinants below EPSILON, hence the conditions on determinants. -/
theorem C114_inverse_laws_M22 (A B X Y : Mat 2 ℝ) (c : ℝ) (hA : M22.inverse A = .ok (some X))
    (hB : M22.inverse B = .ok (some Y)) :
    M22.det A * M22.det X = 1 ∧
    M22.inverse (M22.transpose A) = .ok (some (M22.transpose X)) ∧
    (P.eps ≤ |1 / M22.det A| → M22.inverse X = .ok (some A)) ∧
    (P.eps ≤ |M22.det A * M22.det B| → M22.inverse (M22.mul A B) = .ok (some (M22.mul Y X))) ∧
    (P.eps ≤ |c ^ 2 * M22.det A| → M22.inverse (M22.smul A c) = .ok (some (M22.sdiv X c))) ∧
    M22.inverse (M22.neg A) = .ok (some (M22.neg X)) ∧
    M22.inverse (M22.one : Mat 2 ℝ) = .ok (some M22.one) := by
  obtain ⟨a1, a2, a3⟩ := M22.of_inverse A X hA
  obtain ⟨b1, b2, b3⟩ := M22.of_inverse B Y hB
  have dA : M22.det A = A.toM.det := M22.det_eq A
  have dX : M22.det X = X.toM.det := M22.det_eq X
  have dB : M22.det B = B.toM.det := M22.det_eq B
  rw [dA, dX, dB]
  have hdet : A.toM.det * X.toM.det = 1 := by rw [← Matrix.det_mul, a3, Matrix.det_one]
  refine ⟨hdet, ?_, fun h => ?_, fun h => ?_, fun h => ?_, ?_, ?_⟩
  · refine M22.inverse_of _ _ ?_ ?_
    · rw [M22.toM_transpose, Matrix.det_transpose]
      exact a1
    · rw [M22.toM_transpose, M22.toM_transpose, ← Matrix.transpose_mul, a3, Matrix.transpose_one]
  · refine M22.inverse_of _ _ ?_ a3
    rwa [eq_one_div_of_mul_eq_one_right hdet]
  · refine M22.inverse_of _ _ ?_ ?_
    · rwa [M22.toM_mul, Matrix.det_mul]
    · rw [M22.toM_mul, M22.toM_mul, mul_assoc, ← mul_assoc X.toM, a2, one_mul, b2]
  · have hc : c ≠ 0 := by
      rintro rfl
      rw [zero_pow (by norm_num), zero_mul, abs_zero] at h
      exact absurd P.eps_pos (not_lt.2 h)
    have hs : (M22.sdiv X c).toM = c⁻¹ • X.toM := by
      ext i j
      exact (M22.sdiv_apply X c i j).trans (div_eq_inv_mul _ _)
    refine M22.inverse_of _ _ ?_ ?_
    · rw [M22.toM_smul, Matrix.det_smul, Fintype.card_fin]
      exact h
    · rw [hs, M22.toM_smul, Matrix.smul_mul, Matrix.mul_smul, smul_smul, a2, inv_mul_cancel₀ hc, one_smul]
  · refine M22.inverse_of _ _ ?_ ?_
    · rw [M22.toM_neg, Matrix.det_neg, abs_mul, abs_pow, abs_neg, abs_one, one_pow, one_mul]
      exact a1
    · rw [M22.toM_neg, M22.toM_neg, neg_mul_neg, a2]
  · refine M22.inverse_of _ _ ?_ ?_
    · rw [M22.toM_one, Matrix.det_one, abs_one]
      have := P.eps_le
      norm_num at this ⊢
      linarith
    · rw [M22.toM_one, one_mul]

/-- The inverse of a transpose, of an inverse, of a product and of a multiple; its determinant. `inverse`
refuses determinants below EPSILON, hence the conditions on determinants. -/
theorem C114_inverse_laws_M33 (A B X Y : Mat 3 ℝ) (c : ℝ) (hA : M33.inverse A = .ok (some X))
    (hB : M33.inverse B = .ok (some Y)) :
    M33.det A * M33.det X = 1 ∧
    M33.inverse (M33.transpose A) = .ok (some (M33.transpose X)) ∧
    (P.eps ≤ |1 / M33.det A| → M33.inverse X = .ok (some A)) ∧
    (P.eps ≤ |M33.det A * M33.det B| → M33.inverse (M33.mul A B) = .ok (some (M33.mul Y X))) ∧
    (P.eps ≤ |c ^ 3 * M33.det A| → M33.inverse (M33.smul A c) = .ok (some (M33.sdiv X c))) ∧
    M33.inverse (M33.neg A) = .ok (some (M33.neg X)) ∧
    M33.inverse (M33.one : Mat 3 ℝ) = .ok (some M33.one) := by
  obtain ⟨a1, a2, a3⟩ := M33.of_inverse A X hA
  obtain ⟨b1, b2, b3⟩ := M33.of_inverse B Y hB
  have dA : M33.det A = A.toM.det := M33.det_eq A
  have dX : M33.det X = X.toM.det := M33.det_eq X
  have dB : M33.det B = B.toM.det := M33.det_eq B
  rw [dA, dX, dB]
  have hdet : A.toM.det * X.toM.det = 1 := by rw [← Matrix.det_mul, a3, Matrix.det_one]
  refine ⟨hdet, ?_, fun h => ?_, fun h => ?_, fun h => ?_, ?_, ?_⟩
  · refine M33.inverse_of _ _ ?_ ?_
    · rw [M33.toM_transpose, Matrix.det_transpose]
      exact a1
    · rw [M33.toM_transpose, M33.toM_transpose, ← Matrix.transpose_mul, a3, Matrix.transpose_one]
  · refine M33.inverse_of _ _ ?_ a3
    rwa [eq_one_div_of_mul_eq_one_right hdet]
  · refine M33.inverse_of _ _ ?_ ?_
    · rwa [M33.toM_mul, Matrix.det_mul]
    · rw [M33.toM_mul, M33.toM_mul, mul_assoc, ← mul_assoc X.toM, a2, one_mul, b2]
  · have hc : c ≠ 0 := by
      rintro rfl
      rw [zero_pow (by norm_num), zero_mul, abs_zero] at h
      exact absurd P.eps_pos (not_lt.2 h)
    have hs : (M33.sdiv X c).toM = c⁻¹ • X.toM := by
      ext i j
      exact (M33.sdiv_apply X c i j).trans (div_eq_inv_mul _ _)
    refine M33.inverse_of _ _ ?_ ?_
    · rw [M33.toM_smul, Matrix.det_smul, Fintype.card_fin]
      exact h
    · rw [hs, M33.toM_smul, Matrix.smul_mul, Matrix.mul_smul, smul_smul, a2, inv_mul_cancel₀ hc, one_smul]
  · refine M33.inverse_of _ _ ?_ ?_
    · rw [M33.toM_neg, Matrix.det_neg, abs_mul, abs_pow, abs_neg, abs_one, one_pow, one_mul]
      exact a1
    · rw [M33.toM_neg, M33.toM_neg, neg_mul_neg, a2]
  · refine M33.inverse_of _ _ ?_ ?_
    · rw [M33.toM_one, Matrix.det_one, abs_one]
      have := P.eps_le
      norm_num at this ⊢
      linarith
    · rw [M33.toM_one, one_mul]

/-- The inverse of a transpose, of an inverse, of a product and of a multiple; its determinant. `inverse`
refuses determinants below EPSILON, hence the conditions on determinants. -/
theorem C114_inverse_laws_M44 (A B X Y : Mat 4 ℝ) (c : ℝ) (hA : M44.inverse A = .ok (some X))
    (hB : M44.inverse B = .ok (some Y)) :
    M44.det A * M44.det X = 1 ∧
    M44.inverse (M44.transpose A) = .ok (some (M44.transpose X)) ∧
    (P.eps ≤ |1 / M44.det A| → M44.inverse X = .ok (some A)) ∧
    (P.eps ≤ |M44.det A * M44.det B| → M44.inverse (M44.mul A B) = .ok (some (M44.mul Y X))) ∧
    (P.eps ≤ |c ^ 4 * M44.det A| → M44.inverse (M44.smul A c) = .ok (some (M44.sdiv X c))) ∧
    M44.inverse (M44.neg A) = .ok (some (M44.neg X)) ∧
    M44.inverse (M44.one : Mat 4 ℝ) = .ok (some M44.one) := by
  obtain ⟨a1, a2, a3⟩ := M44.of_inverse A X hA
  obtain ⟨b1, b2, b3⟩ := M44.of_inverse B Y hB
  have dA : M44.det A = A.toM.det := M44.det_eq A
  have dX : M44.det X = X.toM.det := M44.det_eq X
  have dB : M44.det B = B.toM.det := M44.det_eq B
  rw [dA, dX, dB]
  have hdet : A.toM.det * X.toM.det = 1 := by rw [← Matrix.det_mul, a3, Matrix.det_one]
  refine ⟨hdet, ?_, fun h => ?_, fun h => ?_, fun h => ?_, ?_, ?_⟩
  · refine M44.inverse_of _ _ ?_ ?_
    · rw [M44.toM_transpose, Matrix.det_transpose]
      exact a1
    · rw [M44.toM_transpose, M44.toM_transpose, ← Matrix.transpose_mul, a3, Matrix.transpose_one]
  · refine M44.inverse_of _ _ ?_ a3
    rwa [eq_one_div_of_mul_eq_one_right hdet]
  · refine M44.inverse_of _ _ ?_ ?_
    · rwa [M44.toM_mul, Matrix.det_mul]
    · rw [M44.toM_mul, M44.toM_mul, mul_assoc, ← mul_assoc X.toM, a2, one_mul, b2]
  · have hc : c ≠ 0 := by
      rintro rfl
      rw [zero_pow (by norm_num), zero_mul, abs_zero] at h
      exact absurd P.eps_pos (not_lt.2 h)
    have hs : (M44.sdiv X c).toM = c⁻¹ • X.toM := by
      ext i j
      exact (M44.sdiv_apply X c i j).trans (div_eq_inv_mul _ _)
    refine M44.inverse_of _ _ ?_ ?_
    · rw [M44.toM_smul, Matrix.det_smul, Fintype.card_fin]
      exact h
    · rw [hs, M44.toM_smul, Matrix.smul_mul, Matrix.mul_smul, smul_smul, a2, inv_mul_cancel₀ hc, one_smul]
  · refine M44.inverse_of _ _ ?_ ?_
    · rw [M44.toM_neg, Matrix.det_neg, abs_mul, abs_pow, abs_neg, abs_one, one_pow, one_mul]
      exact a1
    · rw [M44.toM_neg, M44.toM_neg, neg_mul_neg, a2]
  · refine M44.inverse_of _ _ ?_ ?_
    · rw [M44.toM_one, Matrix.det_one, abs_one]
      have := P.eps_le
      norm_num at this ⊢
      linarith
    · rw [M44.toM_one, one_mul]

/-- The inverse of a transpose, of an inverse, of a product and of a multiple; its determinant. `inverse`
refuses determinants below EPSILON, hence the conditions on determinants. -/
theorem C114_inverse_laws_M55 (A B X Y : Mat 5 ℝ) (c : ℝ) (hA : M55.inverse A = .ok (some X))
    (hB : M55.inverse B = .ok (some Y)) :
    M55.det A * M55.det X = 1 ∧
    M55.inverse (M55.transpose A) = .ok (some (M55.transpose X)) ∧
    (P.eps ≤ |1 / M55.det A| → M55.inverse X = .ok (some A)) ∧
    (P.eps ≤ |M55.det A * M55.det B| → M55.inverse (M55.mul A B) = .ok (some (M55.mul Y X))) ∧
    (P.eps ≤ |c ^ 5 * M55.det A| → M55.inverse (M55.smul A c) = .ok (some (M55.sdiv X c))) ∧
    M55.inverse (M55.neg A) = .ok (some (M55.neg X)) ∧
    M55.inverse (M55.one : Mat 5 ℝ) = .ok (some M55.one) := by
  obtain ⟨a1, a2, a3⟩ := M55.of_inverse A X hA
  obtain ⟨b1, b2, b3⟩ := M55.of_inverse B Y hB
  have dA : M55.det A = A.toM.det := M55.det_eq A
  have dX : M55.det X = X.toM.det := M55.det_eq X
  have dB : M55.det B = B.toM.det := M55.det_eq B
  rw [dA, dX, dB]
  have hdet : A.toM.det * X.toM.det = 1 := by rw [← Matrix.det_mul, a3, Matrix.det_one]
  refine ⟨hdet, ?_, fun h => ?_, fun h => ?_, fun h => ?_, ?_, ?_⟩
  · refine M55.inverse_of _ _ ?_ ?_
    · rw [M55.toM_transpose, Matrix.det_transpose]
      exact a1
    · rw [M55.toM_transpose, M55.toM_transpose, ← Matrix.transpose_mul, a3, Matrix.transpose_one]
  · refine M55.inverse_of _ _ ?_ a3
    rwa [eq_one_div_of_mul_eq_one_right hdet]
  · refine M55.inverse_of _ _ ?_ ?_
    · rwa [M55.toM_mul, Matrix.det_mul]
    · rw [M55.toM_mul, M55.toM_mul, mul_assoc, ← mul_assoc X.toM, a2, one_mul, b2]
  · have hc : c ≠ 0 := by
      rintro rfl
      rw [zero_pow (by norm_num), zero_mul, abs_zero] at h
      exact absurd P.eps_pos (not_lt.2 h)
    have hs : (M55.sdiv X c).toM = c⁻¹ • X.toM := by
      ext i j
      exact (M55.sdiv_apply X c i j).trans (div_eq_inv_mul _ _)
    refine M55.inverse_of _ _ ?_ ?_
    · rw [M55.toM_smul, Matrix.det_smul, Fintype.card_fin]
      exact h
    · rw [hs, M55.toM_smul, Matrix.smul_mul, Matrix.mul_smul, smul_smul, a2, inv_mul_cancel₀ hc, one_smul]
  · refine M55.inverse_of _ _ ?_ ?_
    · rw [M55.toM_neg, Matrix.det_neg, abs_mul, abs_pow, abs_neg, abs_one, one_pow, one_mul]
      exact a1
    · rw [M55.toM_neg, M55.toM_neg, neg_mul_neg, a2]
  · refine M55.inverse_of _ _ ?_ ?_
    · rw [M55.toM_one, Matrix.det_one, abs_one]
      have := P.eps_le
      norm_num at this ⊢
      linarith
    · rw [M55.toM_one, one_mul]

/-- The inverse of a transpose, of an inverse, of a product and of a multiple; its determinant. `inverse`
refuses determinants below EPSILON, hence the conditions on determinants. -/
theorem C114_inverse_laws_M66 (A B X Y : Mat 6 ℝ) (c : ℝ) (hA : M66.inverse A = .ok (some X))
    (hB : M66.inverse B = .ok (some Y)) :
    M66.det A * M66.det X = 1 ∧
    M66.inverse (M66.transpose A) = .ok (some (M66.transpose X)) ∧
    (P.eps ≤ |1 / M66.det A| → M66.inverse X = .ok (some A)) ∧
    (P.eps ≤ |M66.det A * M66.det B| → M66.inverse (M66.mul A B) = .ok (some (M66.mul Y X))) ∧
    (P.eps ≤ |c ^ 6 * M66.det A| → M66.inverse (M66.smul A c) = .ok (some (M66.sdiv X c))) ∧
    M66.inverse (M66.neg A) = .ok (some (M66.neg X)) ∧
    M66.inverse (M66.one : Mat 6 ℝ) = .ok (some M66.one) := by
  obtain ⟨a1, a2, a3⟩ := M66.of_inverse A X hA
  obtain ⟨b1, b2, b3⟩ := M66.of_inverse B Y hB
  have dA : M66.det A = A.toM.det := M66.det_eq A
  have dX : M66.det X = X.toM.det := M66.det_eq X
  have dB : M66.det B = B.toM.det := M66.det_eq B
  rw [dA, dX, dB]
  have hdet : A.toM.det * X.toM.det = 1 := by rw [← Matrix.det_mul, a3, Matrix.det_one]
  refine ⟨hdet, ?_, fun h => ?_, fun h => ?_, fun h => ?_, ?_, ?_⟩
  · refine M66.inverse_of _ _ ?_ ?_
    · rw [M66.toM_transpose, Matrix.det_transpose]
      exact a1
    · rw [M66.toM_transpose, M66.toM_transpose, ← Matrix.transpose_mul, a3, Matrix.transpose_one]
  · refine M66.inverse_of _ _ ?_ a3
    rwa [eq_one_div_of_mul_eq_one_right hdet]
  · refine M66.inverse_of _ _ ?_ ?_
    · rwa [M66.toM_mul, Matrix.det_mul]
    · rw [M66.toM_mul, M66.toM_mul, mul_assoc, ← mul_assoc X.toM, a2, one_mul, b2]
  · have hc : c ≠ 0 := by
      rintro rfl
      rw [zero_pow (by norm_num), zero_mul, abs_zero] at h
      exact absurd P.eps_pos (not_lt.2 h)
    have hs : (M66.sdiv X c).toM = c⁻¹ • X.toM := by
      ext i j
      exact (M66.sdiv_apply X c i j).trans (div_eq_inv_mul _ _)
    refine M66.inverse_of _ _ ?_ ?_
    · rw [M66.toM_smul, Matrix.det_smul, Fintype.card_fin]
      exact h
    · rw [hs, M66.toM_smul, Matrix.smul_mul, Matrix.mul_smul, smul_smul, a2, inv_mul_cancel₀ hc, one_smul]
  · refine M66.inverse_of _ _ ?_ ?_
    · rw [M66.toM_neg, Matrix.det_neg, abs_mul, abs_pow, abs_neg, abs_one, one_pow, one_mul]
      exact a1
    · rw [M66.toM_neg, M66.toM_neg, neg_mul_neg, a2]
  · refine M66.inverse_of _ _ ?_ ?_
    · rw [M66.toM_one, Matrix.det_one, abs_one]
      have := P.eps_le
      norm_num at this ⊢
      linarith
    · rw [M66.toM_one, one_mul]

/-- The hypotheses are met, and the conditions too. -/
example : M22.inverse (⟨![![2, 1], ![1, 1]]⟩ : Mat 2 ℝ) = .ok (some ⟨![![1, -1], ![-1, 2]]⟩) := by
  refine M22.inverse_of _ _ ?_ ?_
  · have : (⟨![![2, 1], ![1, 1]]⟩ : Mat 2 ℝ).toM.det = 1 := by
      rw [Matrix.det_fin_two]
      change (2 : ℝ) * 1 - 1 * 1 = 1
      norm_num
    rw [this, abs_one]
    have := P.eps_le
    norm_num at this ⊢
    linarith
  · ext i j
    rw [Matrix.mul_apply, Fin.sum_univ_two]
    fin_cases i <;> fin_cases j <;> simp [Mat.toM] <;> norm_num

/-! ## C115 change of basis -/

/-- With `X = A.inverse()`: `X*M*A` has the determinant and the trace of `M`, and products and inverses of
conjugated matrices are the conjugated products and inverses. -/
theorem C115_similar_M22 (A X M M' : Mat 2 ℝ) (hA : M22.inverse A = .ok (some X)) :
    M22.det (M22.mul (M22.mul X M) A) = M22.det M ∧
    M22.trace (M22.mul (M22.mul X M) A) = M22.trace M ∧
    M22.mul (M22.mul (M22.mul X M) A) (M22.mul (M22.mul X M') A) = M22.mul (M22.mul X (M22.mul M M')) A ∧
    (∀ W, M22.inverse M = .ok (some W) →
      M22.inverse (M22.mul (M22.mul X M) A) = .ok (some (M22.mul (M22.mul X W) A))) ∧
    (M22.inverse M = .ok none → M22.inverse (M22.mul (M22.mul X M) A) = .ok none) := by
  obtain ⟨a1, a2, a3⟩ := M22.of_inverse A X hA
  have hdet : X.toM.det * A.toM.det = 1 := by rw [← Matrix.det_mul, a2, Matrix.det_one]
  have hd : (M22.mul (M22.mul X M) A).toM.det = M.toM.det := by
    rw [M22.toM_mul, M22.toM_mul, Matrix.det_mul, Matrix.det_mul, mul_right_comm, hdet, one_mul]
  refine ⟨?_, ?_, ?_, fun W hW => ?_, fun hN => ?_⟩
  · have e1 : M22.det (M22.mul (M22.mul X M) A) = (M22.mul (M22.mul X M) A).toM.det := M22.det_eq _
    have e2 : M22.det M = M.toM.det := M22.det_eq _
    rw [e1, e2, hd]
  · rw [M22.trace_toM, M22.trace_toM, M22.toM_mul, M22.toM_mul, Matrix.trace_mul_comm, ← mul_assoc, a3, one_mul]
  · rw [← Mat.toM_inj]
    simp only [M22.toM_mul]
    rw [show X.toM * M.toM * A.toM * (X.toM * M'.toM * A.toM) = X.toM * M.toM * (A.toM * X.toM) * M'.toM * A.toM by
      simp only [mul_assoc], a3, mul_one, mul_assoc X.toM]
  · obtain ⟨w1, w2, w3⟩ := M22.of_inverse M W hW
    refine M22.inverse_of _ _ (by rwa [hd]) ?_
    simp only [M22.toM_mul]
    rw [show X.toM * W.toM * A.toM * (X.toM * M.toM * A.toM) = X.toM * W.toM * (A.toM * X.toM) * M.toM * A.toM by
      simp only [mul_assoc], a3, mul_one, mul_assoc X.toM, w2, mul_one, a2]
  · obtain ⟨o, ho, hn, -⟩ := C09_inverse_M22 M
    obtain ⟨o', ho', hn', -⟩ := C09_inverse_M22 (M22.mul (M22.mul X M) A)
    rw [ho] at hN
    have h0 : o = none := Except.ok.inj hN
    rw [ho', hn'.2 (by rw [hd]; exact hn.1 h0)]

/-- With `X = A.inverse()`: `X*M*A` has the determinant and the trace of `M`, and products and inverses of
conjugated matrices are the conjugated products and inverses. -/
theorem C115_similar_M33 (A X M M' : Mat 3 ℝ) (hA : M33.inverse A = .ok (some X)) :
    M33.det (M33.mul (M33.mul X M) A) = M33.det M ∧
    M33.trace (M33.mul (M33.mul X M) A) = M33.trace M ∧
    M33.mul (M33.mul (M33.mul X M) A) (M33.mul (M33.mul X M') A) = M33.mul (M33.mul X (M33.mul M M')) A ∧
    (∀ W, M33.inverse M = .ok (some W) →
      M33.inverse (M33.mul (M33.mul X M) A) = .ok (some (M33.mul (M33.mul X W) A))) ∧
    (M33.inverse M = .ok none → M33.inverse (M33.mul (M33.mul X M) A) = .ok none) := by
  obtain ⟨a1, a2, a3⟩ := M33.of_inverse A X hA
  have hdet : X.toM.det * A.toM.det = 1 := by rw [← Matrix.det_mul, a2, Matrix.det_one]
  have hd : (M33.mul (M33.mul X M) A).toM.det = M.toM.det := by
    rw [M33.toM_mul, M33.toM_mul, Matrix.det_mul, Matrix.det_mul, mul_right_comm, hdet, one_mul]
  refine ⟨?_, ?_, ?_, fun W hW => ?_, fun hN => ?_⟩
  · have e1 : M33.det (M33.mul (M33.mul X M) A) = (M33.mul (M33.mul X M) A).toM.det := M33.det_eq _
    have e2 : M33.det M = M.toM.det := M33.det_eq _
    rw [e1, e2, hd]
  · rw [M33.trace_toM, M33.trace_toM, M33.toM_mul, M33.toM_mul, Matrix.trace_mul_comm, ← mul_assoc, a3, one_mul]
  · rw [← Mat.toM_inj]
    simp only [M33.toM_mul]
    rw [show X.toM * M.toM * A.toM * (X.toM * M'.toM * A.toM) = X.toM * M.toM * (A.toM * X.toM) * M'.toM * A.toM by
      simp only [mul_assoc], a3, mul_one, mul_assoc X.toM]
  · obtain ⟨w1, w2, w3⟩ := M33.of_inverse M W hW
    refine M33.inverse_of _ _ (by rwa [hd]) ?_
    simp only [M33.toM_mul]
    rw [show X.toM * W.toM * A.toM * (X.toM * M.toM * A.toM) = X.toM * W.toM * (A.toM * X.toM) * M.toM * A.toM by
      simp only [mul_assoc], a3, mul_one, mul_assoc X.toM, w2, mul_one, a2]
  · obtain ⟨o, ho, hn, -⟩ := C09_inverse_M33 M
    obtain ⟨o', ho', hn', -⟩ := C09_inverse_M33 (M33.mul (M33.mul X M) A)
    rw [ho] at hN
    have h0 : o = none := Except.ok.inj hN
    rw [ho', hn'.2 (by rw [hd]; exact hn.1 h0)]

/-- With `X = A.inverse()`: `X*M*A` has the determinant and the trace of `M`, and products and inverses of
conjugated matrices are the conjugated products and inverses. -/
theorem C115_similar_M44 (A X M M' : Mat 4 ℝ) (hA : M44.inverse A = .ok (some X)) :
    M44.det (M44.mul (M44.mul X M) A) = M44.det M ∧
    M44.trace (M44.mul (M44.mul X M) A) = M44.trace M ∧
    M44.mul (M44.mul (M44.mul X M) A) (M44.mul (M44.mul X M') A) = M44.mul (M44.mul X (M44.mul M M')) A ∧
    (∀ W, M44.inverse M = .ok (some W) →
      M44.inverse (M44.mul (M44.mul X M) A) = .ok (some (M44.mul (M44.mul X W) A))) ∧
    (M44.inverse M = .ok none → M44.inverse (M44.mul (M44.mul X M) A) = .ok none) := by
  obtain ⟨a1, a2, a3⟩ := M44.of_inverse A X hA
  have hdet : X.toM.det * A.toM.det = 1 := by rw [← Matrix.det_mul, a2, Matrix.det_one]
  have hd : (M44.mul (M44.mul X M) A).toM.det = M.toM.det := by
    rw [M44.toM_mul, M44.toM_mul, Matrix.det_mul, Matrix.det_mul, mul_right_comm, hdet, one_mul]
  refine ⟨?_, ?_, ?_, fun W hW => ?_, fun hN => ?_⟩
  · have e1 : M44.det (M44.mul (M44.mul X M) A) = (M44.mul (M44.mul X M) A).toM.det := M44.det_eq _
    have e2 : M44.det M = M.toM.det := M44.det_eq _
    rw [e1, e2, hd]
  · rw [M44.trace_toM, M44.trace_toM, M44.toM_mul, M44.toM_mul, Matrix.trace_mul_comm, ← mul_assoc, a3, one_mul]
  · rw [← Mat.toM_inj]
    simp only [M44.toM_mul]
    rw [show X.toM * M.toM * A.toM * (X.toM * M'.toM * A.toM) = X.toM * M.toM * (A.toM * X.toM) * M'.toM * A.toM by
      simp only [mul_assoc], a3, mul_one, mul_assoc X.toM]
  · obtain ⟨w1, w2, w3⟩ := M44.of_inverse M W hW
    refine M44.inverse_of _ _ (by rwa [hd]) ?_
    simp only [M44.toM_mul]
    rw [show X.toM * W.toM * A.toM * (X.toM * M.toM * A.toM) = X.toM * W.toM * (A.toM * X.toM) * M.toM * A.toM by
      simp only [mul_assoc], a3, mul_one, mul_assoc X.toM, w2, mul_one, a2]
  · obtain ⟨o, ho, hn, -⟩ := C09_inverse_M44 M
    obtain ⟨o', ho', hn', -⟩ := C09_inverse_M44 (M44.mul (M44.mul X M) A)
    rw [ho] at hN
    have h0 : o = none := Except.ok.inj hN
    rw [ho', hn'.2 (by rw [hd]; exact hn.1 h0)]

/-- With `X = A.inverse()`: `X*M*A` has the determinant and the trace of `M`, and products and inverses of
conjugated matrices are the conjugated products and inverses. -/
theorem C115_similar_M55 (A X M M' : Mat 5 ℝ) (hA : M55.inverse A = .ok (some X)) :
    M55.det (M55.mul (M55.mul X M) A) = M55.det M ∧
    M55.trace (M55.mul (M55.mul X M) A) = M55.trace M ∧
    M55.mul (M55.mul (M55.mul X M) A) (M55.mul (M55.mul X M') A) = M55.mul (M55.mul X (M55.mul M M')) A ∧
    (∀ W, M55.inverse M = .ok (some W) →
      M55.inverse (M55.mul (M55.mul X M) A) = .ok (some (M55.mul (M55.mul X W) A))) ∧
    (M55.inverse M = .ok none → M55.inverse (M55.mul (M55.mul X M) A) = .ok none) := by
  obtain ⟨a1, a2, a3⟩ := M55.of_inverse A X hA
  have hdet : X.toM.det * A.toM.det = 1 := by rw [← Matrix.det_mul, a2, Matrix.det_one]
  have hd : (M55.mul (M55.mul X M) A).toM.det = M.toM.det := by
    rw [M55.toM_mul, M55.toM_mul, Matrix.det_mul, Matrix.det_mul, mul_right_comm, hdet, one_mul]
  refine ⟨?_, ?_, ?_, fun W hW => ?_, fun hN => ?_⟩
  · have e1 : M55.det (M55.mul (M55.mul X M) A) = (M55.mul (M55.mul X M) A).toM.det := M55.det_eq _
    have e2 : M55.det M = M.toM.det := M55.det_eq _
    rw [e1, e2, hd]
  · rw [M55.trace_toM, M55.trace_toM, M55.toM_mul, M55.toM_mul, Matrix.trace_mul_comm, ← mul_assoc, a3, one_mul]
  · rw [← Mat.toM_inj]
    simp only [M55.toM_mul]
    rw [show X.toM * M.toM * A.toM * (X.toM * M'.toM * A.toM) = X.toM * M.toM * (A.toM * X.toM) * M'.toM * A.toM by
      simp only [mul_assoc], a3, mul_one, mul_assoc X.toM]
  · obtain ⟨w1, w2, w3⟩ := M55.of_inverse M W hW
    refine M55.inverse_of _ _ (by rwa [hd]) ?_
    simp only [M55.toM_mul]
    rw [show X.toM * W.toM * A.toM * (X.toM * M.toM * A.toM) = X.toM * W.toM * (A.toM * X.toM) * M.toM * A.toM by
      simp only [mul_assoc], a3, mul_one, mul_assoc X.toM, w2, mul_one, a2]
  · obtain ⟨o, ho, hn, -⟩ := C09_inverse_M55 M
    obtain ⟨o', ho', hn', -⟩ := C09_inverse_M55 (M55.mul (M55.mul X M) A)
    rw [ho] at hN
    have h0 : o = none := Except.ok.inj hN
    rw [ho', hn'.2 (by rw [hd]; exact hn.1 h0)]

/-- With `X = A.inverse()`: `X*M*A` has the determinant and the trace of `M`, and products and inverses of
conjugated matrices are the conjugated products and inverses. -/
theorem C115_similar_M66 (A X M M' : Mat 6 ℝ) (hA : M66.inverse A = .ok (some X)) :
    M66.det (M66.mul (M66.mul X M) A) = M66.det M ∧
    M66.trace (M66.mul (M66.mul X M) A) = M66.trace M ∧
    M66.mul (M66.mul (M66.mul X M) A) (M66.mul (M66.mul X M') A) = M66.mul (M66.mul X (M66.mul M M')) A ∧
    (∀ W, M66.inverse M = .ok (some W) →
      M66.inverse (M66.mul (M66.mul X M) A) = .ok (some (M66.mul (M66.mul X W) A))) ∧
    (M66.inverse M = .ok none → M66.inverse (M66.mul (M66.mul X M) A) = .ok none) := by
  obtain ⟨a1, a2, a3⟩ := M66.of_inverse A X hA
  have hdet : X.toM.det * A.toM.det = 1 := by rw [← Matrix.det_mul, a2, Matrix.det_one]
  have hd : (M66.mul (M66.mul X M) A).toM.det = M.toM.det := by
    rw [M66.toM_mul, M66.toM_mul, Matrix.det_mul, Matrix.det_mul, mul_right_comm, hdet, one_mul]
  refine ⟨?_, ?_, ?_, fun W hW => ?_, fun hN => ?_⟩
  · have e1 : M66.det (M66.mul (M66.mul X M) A) = (M66.mul (M66.mul X M) A).toM.det := M66.det_eq _
    have e2 : M66.det M = M.toM.det := M66.det_eq _
    rw [e1, e2, hd]
  · rw [M66.trace_toM, M66.trace_toM, M66.toM_mul, M66.toM_mul, Matrix.trace_mul_comm, ← mul_assoc, a3, one_mul]
  · rw [← Mat.toM_inj]
    simp only [M66.toM_mul]
    rw [show X.toM * M.toM * A.toM * (X.toM * M'.toM * A.toM) = X.toM * M.toM * (A.toM * X.toM) * M'.toM * A.toM by
      simp only [mul_assoc], a3, mul_one, mul_assoc X.toM]
  · obtain ⟨w1, w2, w3⟩ := M66.of_inverse M W hW
    refine M66.inverse_of _ _ (by rwa [hd]) ?_
    simp only [M66.toM_mul]
    rw [show X.toM * W.toM * A.toM * (X.toM * M.toM * A.toM) = X.toM * W.toM * (A.toM * X.toM) * M.toM * A.toM by
      simp only [mul_assoc], a3, mul_one, mul_assoc X.toM, w2, mul_one, a2]
  · obtain ⟨o, ho, hn, -⟩ := C09_inverse_M66 M
    obtain ⟨o', ho', hn', -⟩ := C09_inverse_M66 (M66.mul (M66.mul X M) A)
    rw [ho] at hN
    have h0 : o = none := Except.ok.inj hN
    rw [ho', hn'.2 (by rw [hd]; exact hn.1 h0)]

/-- The eigenvalues of a 2x2 matrix do not depend on the basis. -/
theorem C115_eigenvals (A X M : Mat 2 ℝ) (hA : M22.inverse A = .ok (some X)) :
    M22.real_eigenvals (M22.mul (M22.mul X M) A) = M22.real_eigenvals M ∧
    M22.real_eigenvals (M22.transpose M) = M22.real_eigenvals M := by
  have key : ∀ M N : Mat 2 ℝ, M.toM.trace = N.toM.trace → M.toM.det = N.toM.det →
      M22.real_eigenvals M = M22.real_eigenvals N := by
    intro M N ht hd
    have ev : ∀ (M N : Mat 2 ℝ), M.toM.trace = N.toM.trace → M.toM.det = N.toM.det → ∀ x : ℝ,
        (∃ v : Fin 2 → ℝ, v ≠ 0 ∧ M.toM.mulVec v = x • v) → ∃ v : Fin 2 → ℝ, v ≠ 0 ∧ N.toM.mulVec v = x • v := by
      intro M N ht hd x hx
      have h1 : ∀ K : Mat 2 ℝ, (∃ v : Fin 2 → ℝ, v ≠ 0 ∧ K.toM.mulVec v = x • v) ↔
          x ^ 2 - K.toM.trace * x + K.toM.det = 0 := by
        intro K
        have e : (∃ v : Fin 2 → ℝ, v ≠ 0 ∧ K.toM.mulVec v = x • v) ↔
            ∃ v : Fin 2 → ℝ, v ≠ 0 ∧ (K.toM - Matrix.scalar (Fin 2) x).mulVec v = 0 := by
          refine exists_congr fun v => and_congr_right fun _ => ?_
          rw [Matrix.sub_mulVec, sub_eq_zero]
          rw [show (Matrix.scalar (Fin 2) x).mulVec v = x • v by
            ext i
            simp [Matrix.scalar_apply, Matrix.mulVec_diagonal]]
        rw [e, Matrix.exists_mulVec_eq_zero_iff, Matrix.det_fin_two, Matrix.det_fin_two, Matrix.trace_fin_two]
        simp only [Matrix.sub_apply, Matrix.scalar_apply, Matrix.diagonal_apply]
        norm_num
        constructor <;> intro h <;> linarith
      rw [h1] at hx ⊢
      rw [← ht, ← hd]
      exact hx
    obtain ⟨m1, m2⟩ := C33_real_eigenvals M
    obtain ⟨n1, n2⟩ := C33_real_eigenvals N
    cases hM : M22.real_eigenvals M with
    | none =>
      have h2 := m1.1 hM
      rw [n1.2 fun ⟨x, hx⟩ => h2 ⟨x, ev N M ht.symm hd.symm x hx⟩]
    | some l =>
      cases hN : M22.real_eigenvals N with
      | none =>
        have h2 := n1.1 hN
        have h3 : ¬M22.real_eigenvals M = none := by rw [hM]; simp
        rw [m1, not_not] at h3
        obtain ⟨x, hx⟩ := h3
        exact absurd ⟨x, ev M N ht hd x hx⟩ h2
      | some k =>
        obtain ⟨p1, p2, p3, -⟩ := m2 l hM
        obtain ⟨q1, q2, q3, -⟩ := n2 k hN
        have hs : (l 0 - l 1) ^ 2 = (k 0 - k 1) ^ 2 := by
          have e1 : (l 0 - l 1) ^ 2 = (l 0 + l 1) ^ 2 - 4 * (l 0 * l 1) := by ring
          have e2 : (k 0 - k 1) ^ 2 = (k 0 + k 1) ^ 2 - 4 * (k 0 * k 1) := by ring
          rw [e1, e2, p1, p2, q1, q2, ht, hd]
        have h0 : l 0 - l 1 = k 0 - k 1 := by
          rwa [sq_eq_sq₀ (by linarith) (by linarith)] at hs
        have hlk : l = k := by
          ext i
          fin_cases i
          · change l 0 = k 0
            linarith
          · change l 1 = k 1
            linarith
        rw [hlk]
  refine ⟨key _ _ ?_ ?_, key _ _ ?_ ?_⟩
  · rw [← M22.trace_toM, ← M22.trace_toM]
    exact (C115_similar_M22 A X M M hA).2.1
  · have e1 : M22.det (M22.mul (M22.mul X M) A) = (M22.mul (M22.mul X M) A).toM.det := M22.det_eq _
    have e2 : M22.det M = M.toM.det := M22.det_eq _
    rw [← e1, ← e2]
    exact (C115_similar_M22 A X M M hA).1
  · rw [M22.toM_transpose, Matrix.trace_transpose]
  · rw [M22.toM_transpose, Matrix.det_transpose]

/-! ## C116 the QR factorisation is the only one -/

omit P in
/-- An orthogonal upper triangular matrix with positive diagonal is the identity. -/
private theorem ortho_upper {n : ℕ} (M : Matrix (Fin n) (Fin n) ℝ) (ho : M.transpose * M = 1)
    (hu : ∀ i j, j < i → M i j = 0) (hd : ∀ i, 0 < M i i) : M = 1 := by
  have h : ∀ i j, ∑ k, M k i * M k j = if i = j then 1 else 0 := fun i j => by
    rw [← Matrix.one_apply, ← ho, Matrix.mul_apply]
    rfl
  have key : ∀ k : ℕ, ∀ hk : k < n, ∀ i, M i ⟨k, hk⟩ = if i = ⟨k, hk⟩ then 1 else 0 := by
    intro k
    induction k using Nat.strong_induction_on with
    | _ k ih =>
      intro hk
      have off : ∀ i, i ≠ ⟨k, hk⟩ → M i ⟨k, hk⟩ = 0 := by
        intro i hi
        rcases lt_or_gt_of_ne hi with hlt | hgt
        · have h1 := h i ⟨k, hk⟩
          rw [if_neg hi, Finset.sum_eq_single i] at h1
          · rwa [show M i i = 1 from (ih i.val hlt i.isLt i).trans (if_pos rfl), one_mul] at h1
          · intro l _ hl
            rw [show M l i = 0 from (ih i.val hlt i.isLt l).trans (if_neg hl), zero_mul]
          · intro hn
            exact absurd (Finset.mem_univ _) hn
        · exact hu i _ hgt
      intro i
      split
      · next e =>
        subst e
        have h1 := h ⟨k, hk⟩ ⟨k, hk⟩
        rw [if_pos rfl, Finset.sum_eq_single ⟨k, hk⟩] at h1
        · nlinarith [hd ⟨k, hk⟩]
        · intro l _ hl
          rw [off l hl, zero_mul]
        · intro hn
          exact absurd (Finset.mem_univ _) hn
      · next hi => exact off i hi
  ext i j
  rw [Matrix.one_apply]
  exact key j.val j.isLt i

omit P in
private theorem qr_unique {n : ℕ} (Q R Q' R' : Matrix (Fin n) (Fin n) ℝ) (hQ : Q.transpose * Q = 1)
    (hQ' : Q'.transpose * Q' = 1) (he : Q * R = Q' * R') (hu : ∀ i j, j < i → R i j = 0) (hd : ∀ i, 0 < R i i)
    (hu' : ∀ i j, j < i → R' i j = 0) (hd' : ∀ i, 0 < R' i i) : Q' = Q ∧ R' = R := by
  have hQ2 : Q * Q.transpose = 1 := mul_eq_one_comm.1 hQ
  have hM : Q.transpose * Q' * R' = R := by rw [mul_assoc, ← he, ← mul_assoc, hQ, one_mul]
  have hMo : (Q.transpose * Q').transpose * (Q.transpose * Q') = 1 := by
    rw [Matrix.transpose_mul, Matrix.transpose_transpose, mul_assoc, ← mul_assoc Q, hQ2, one_mul, hQ']
  obtain ⟨M, hMd⟩ : ∃ M, M = Q.transpose * Q' := ⟨_, rfl⟩
  rw [← hMd] at hM hMo
  have hs : ∀ i k, ∑ j, M i j * R' j k = R i k := fun i k => by rw [← hM, Matrix.mul_apply]
  have up : ∀ k : ℕ, ∀ hk : k < n, ∀ i : Fin n, k < i.val → M i ⟨k, hk⟩ = 0 := by
    intro k
    induction k using Nat.strong_induction_on with
    | _ k ih =>
      intro hk i hi
      have h1 := hs i ⟨k, hk⟩
      rw [hu i ⟨k, hk⟩ hi, Finset.sum_eq_single ⟨k, hk⟩] at h1
      · rcases mul_eq_zero.1 h1 with h | h
        · exact h
        · exact absurd h (hd' _).ne'
      · intro j _ hj
        rcases lt_or_gt_of_ne hj with hlt | hgt
        · rw [show M i j = 0 from ih j.val hlt j.isLt i (lt_trans hlt hi), zero_mul]
        · rw [hu' j _ hgt, mul_zero]
      · intro hn
        exact absurd (Finset.mem_univ _) hn
  have hpos : ∀ k, 0 < M k k := by
    intro k
    have h1 := hs k k
    rw [Finset.sum_eq_single k] at h1
    · have h2 := hd k
      rw [← h1] at h2
      exact pos_of_mul_pos_left h2 (hd' k).le
    · intro j _ hj
      rcases lt_or_gt_of_ne hj with hlt | hgt
      · rw [show M k j = 0 from up j.val j.isLt k hlt, zero_mul]
      · rw [hu' j _ hgt, mul_zero]
    · intro hn
      exact absurd (Finset.mem_univ _) hn
  have hM1 : M = 1 := ortho_upper M hMo (fun i j hij => up j.val j.isLt i hij) hpos
  refine ⟨?_, by rw [← hM, hM1, one_mul]⟩
  calc Q' = Q * Q.transpose * Q' := by rw [hQ2, one_mul]
    _ = Q := by rw [mul_assoc, ← hMd, hM1, mul_one]

/-- Any factorisation into an orthogonal matrix and an upper triangular one with positive diagonal is the one
that `qr` returns. -/
theorem C116_qr_unique_M22 (A Q R Q' R' : Mat 2 ℝ) (h : M22.qr A = .ok (some (Q, R)))
    (hQ : M22.mul (M22.transpose Q') Q' = M22.one) (hA : M22.mul Q' R' = A) (hu : ∀ i j, j < i → R' i j = 0)
    (hd : ∀ i, 0 < R' i i) : Q' = Q ∧ R' = R := by
  obtain ⟨h1, h2⟩ := C32_qr_M22 A
  have hdet : P.eps ≤ |M22.det A| := by
    by_contra hc
    rw [h1.2 (not_le.1 hc)] at h
    cases h
  obtain ⟨Q₁, R₁, e, k1, k2, k3, k4⟩ := h2 hdet
  rw [e] at h
  obtain ⟨rfl, rfl⟩ := Prod.mk.inj (Option.some.inj (Except.ok.inj h))
  rw [← Mat.toM_inj] at hQ hA k1 k2
  simp only [M22.toM_mul, M22.toM_transpose, M22.toM_one] at hQ hA k1 k2
  obtain ⟨r1, r2⟩ := qr_unique Q₁.toM R₁.toM Q'.toM R'.toM k1 hQ (k2.trans hA.symm) k3 k4 hu hd
  exact ⟨Mat.toM_injective r1, Mat.toM_injective r2⟩

/-- Any factorisation into an orthogonal matrix and an upper triangular one with positive diagonal is the one
that `qr` returns. -/
theorem C116_qr_unique_M33 (A Q R Q' R' : Mat 3 ℝ) (h : M33.qr A = .ok (some (Q, R)))
    (hQ : M33.mul (M33.transpose Q') Q' = M33.one) (hA : M33.mul Q' R' = A) (hu : ∀ i j, j < i → R' i j = 0)
    (hd : ∀ i, 0 < R' i i) : Q' = Q ∧ R' = R := by
  obtain ⟨h1, h2⟩ := C32_qr_M33 A
  have hdet : P.eps ≤ |M33.det A| := by
    by_contra hc
    rw [h1.2 (not_le.1 hc)] at h
    cases h
  obtain ⟨Q₁, R₁, e, k1, k2, k3, k4⟩ := h2 hdet
  rw [e] at h
  obtain ⟨rfl, rfl⟩ := Prod.mk.inj (Option.some.inj (Except.ok.inj h))
  rw [← Mat.toM_inj] at hQ hA k1 k2
  simp only [M33.toM_mul, M33.toM_transpose, M33.toM_one] at hQ hA k1 k2
  obtain ⟨r1, r2⟩ := qr_unique Q₁.toM R₁.toM Q'.toM R'.toM k1 hQ (k2.trans hA.symm) k3 k4 hu hd
  exact ⟨Mat.toM_injective r1, Mat.toM_injective r2⟩

/-- Any factorisation into an orthogonal matrix and an upper triangular one with positive diagonal is the one
that `qr` returns. -/
theorem C116_qr_unique_M44 (A Q R Q' R' : Mat 4 ℝ) (h : M44.qr A = .ok (some (Q, R)))
    (hQ : M44.mul (M44.transpose Q') Q' = M44.one) (hA : M44.mul Q' R' = A) (hu : ∀ i j, j < i → R' i j = 0)
    (hd : ∀ i, 0 < R' i i) : Q' = Q ∧ R' = R := by
  obtain ⟨h1, h2⟩ := C32_qr_M44 A
  have hdet : P.eps ≤ |M44.det A| := by
    by_contra hc
    rw [h1.2 (not_le.1 hc)] at h
    cases h
  obtain ⟨Q₁, R₁, e, k1, k2, k3, k4⟩ := h2 hdet
  rw [e] at h
  obtain ⟨rfl, rfl⟩ := Prod.mk.inj (Option.some.inj (Except.ok.inj h))
  rw [← Mat.toM_inj] at hQ hA k1 k2
  simp only [M44.toM_mul, M44.toM_transpose, M44.toM_one] at hQ hA k1 k2
  obtain ⟨r1, r2⟩ := qr_unique Q₁.toM R₁.toM Q'.toM R'.toM k1 hQ (k2.trans hA.symm) k3 k4 hu hd
  exact ⟨Mat.toM_injective r1, Mat.toM_injective r2⟩

/-- Any factorisation into an orthogonal matrix and an upper triangular one with positive diagonal is the one
that `qr` returns. -/
theorem C116_qr_unique_M55 (A Q R Q' R' : Mat 5 ℝ) (h : M55.qr A = .ok (some (Q, R)))
    (hQ : M55.mul (M55.transpose Q') Q' = M55.one) (hA : M55.mul Q' R' = A) (hu : ∀ i j, j < i → R' i j = 0)
    (hd : ∀ i, 0 < R' i i) : Q' = Q ∧ R' = R := by
  obtain ⟨h1, h2⟩ := C32_qr_M55 A
  have hdet : P.eps ≤ |M55.det A| := by
    by_contra hc
    rw [h1.2 (not_le.1 hc)] at h
    cases h
  obtain ⟨Q₁, R₁, e, k1, k2, k3, k4⟩ := h2 hdet
  rw [e] at h
  obtain ⟨rfl, rfl⟩ := Prod.mk.inj (Option.some.inj (Except.ok.inj h))
  rw [← Mat.toM_inj] at hQ hA k1 k2
  simp only [M55.toM_mul, M55.toM_transpose, M55.toM_one] at hQ hA k1 k2
  obtain ⟨r1, r2⟩ := qr_unique Q₁.toM R₁.toM Q'.toM R'.toM k1 hQ (k2.trans hA.symm) k3 k4 hu hd
  exact ⟨Mat.toM_injective r1, Mat.toM_injective r2⟩

/-- Any factorisation into an orthogonal matrix and an upper triangular one with positive diagonal is the one
that `qr` returns. -/
theorem C116_qr_unique_M66 (A Q R Q' R' : Mat 6 ℝ) (h : M66.qr A = .ok (some (Q, R)))
    (hQ : M66.mul (M66.transpose Q') Q' = M66.one) (hA : M66.mul Q' R' = A) (hu : ∀ i j, j < i → R' i j = 0)
    (hd : ∀ i, 0 < R' i i) : Q' = Q ∧ R' = R := by
  obtain ⟨h1, h2⟩ := C32_qr_M66 A
  have hdet : P.eps ≤ |M66.det A| := by
    by_contra hc
    rw [h1.2 (not_le.1 hc)] at h
    cases h
  obtain ⟨Q₁, R₁, e, k1, k2, k3, k4⟩ := h2 hdet
  rw [e] at h
  obtain ⟨rfl, rfl⟩ := Prod.mk.inj (Option.some.inj (Except.ok.inj h))
  rw [← Mat.toM_inj] at hQ hA k1 k2
  simp only [M66.toM_mul, M66.toM_transpose, M66.toM_one] at hQ hA k1 k2
  obtain ⟨r1, r2⟩ := qr_unique Q₁.toM R₁.toM Q'.toM R'.toM k1 hQ (k2.trans hA.symm) k3 k4 hu hd
  exact ⟨Mat.toM_injective r1, Mat.toM_injective r2⟩

/-- An upper triangular matrix with positive diagonal (and determinant above the threshold) is its own `R`:
`qr` returns the identity and the matrix. -/
example (a b c : ℝ) (ha : 1 ≤ a) (hc : 1 ≤ c) :
    M22.qr (⟨![![a, b], ![0, c]]⟩ : Mat 2 ℝ) = .ok (some (M22.one, ⟨![![a, b], ![0, c]]⟩)) := by
  have hd : M22.det (⟨![![a, b], ![0, c]]⟩ : Mat 2 ℝ) = a * c := by
    change a * c - 0 * b = a * c
    ring
  obtain ⟨-, h2⟩ := C32_qr_M22 (⟨![![a, b], ![0, c]]⟩ : Mat 2 ℝ)
  obtain ⟨Q, R, h, -⟩ := h2 (by
    rw [hd, abs_of_pos (by positivity)]
    have := P.eps_le
    norm_num at this
    nlinarith)
  obtain ⟨e1, e2⟩ := C116_qr_unique_M22 _ Q R M22.one ⟨![![a, b], ![0, c]]⟩ h
    (by rw [← Mat.toM_inj, M22.toM_mul, M22.toM_transpose, M22.toM_one, Matrix.transpose_one, one_mul])
    (by rw [← Mat.toM_inj, M22.toM_mul, M22.toM_one, one_mul])
    (by
      intro i j hij
      fin_cases i <;> fin_cases j <;> first | rfl | exact absurd hij (by decide))
    (by
      intro i
      fin_cases i
      · exact lt_of_lt_of_le one_pos ha
      · exact lt_of_lt_of_le one_pos hc)
  rw [h, ← e1, ← e2]

end StaticMath

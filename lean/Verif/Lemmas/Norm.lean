import Mathlib.Analysis.InnerProductSpace.PiL2
import Mathlib.Analysis.Matrix.Normed

/-! # Euclidean and Frobenius norm, stated with plain sums -/

namespace StaticMath

variable {n : ℕ}

theorem sqrt_sum_eq_norm (v : Fin n → ℝ) :
    √(∑ k, v k * v k) = ‖(WithLp.toLp 2 v : EuclideanSpace ℝ (Fin n))‖ := by
  rw [EuclideanSpace.norm_eq]
  congr 1
  refine Finset.sum_congr rfl fun k _ => ?_
  simp [sq]

theorem euclid_triangle (v w : Fin n → ℝ) :
    √(∑ k, (v k + w k) * (v k + w k)) ≤ √(∑ k, v k * v k) + √(∑ k, w k * w k) := by
  rw [sqrt_sum_eq_norm, sqrt_sum_eq_norm v, sqrt_sum_eq_norm w]
  exact norm_add_le (WithLp.toLp 2 v) (WithLp.toLp 2 w)

theorem euclid_cauchy (v w : Fin n → ℝ) :
    |∑ k, v k * w k| ≤ √(∑ k, v k * v k) * √(∑ k, w k * w k) := by
  rw [sqrt_sum_eq_norm, sqrt_sum_eq_norm]
  have h := abs_real_inner_le_norm (WithLp.toLp 2 w : EuclideanSpace ℝ (Fin n)) (WithLp.toLp 2 v)
  simp only [PiLp.inner_apply, RCLike.inner_apply, conj_trivial] at h
  rw [mul_comm]
  exact h

theorem euclid_zero (v : Fin n → ℝ) : √(∑ k, v k * v k) = 0 ↔ ∀ k, v k = 0 := by
  rw [Real.sqrt_eq_zero (Finset.sum_nonneg fun k _ => mul_self_nonneg _),
    Finset.sum_eq_zero_iff_of_nonneg fun k _ => mul_self_nonneg _]
  simp

theorem euclid_smul (v : Fin n → ℝ) (c : ℝ) :
    √(∑ k, (v k * c) * (v k * c)) = |c| * √(∑ k, v k * v k) := by
  have : ∑ k, (v k * c) * (v k * c) = c ^ 2 * ∑ k, v k * v k := by
    rw [Finset.mul_sum]
    exact Finset.sum_congr rfl fun k _ => by ring
  rw [this, Real.sqrt_mul (sq_nonneg c), Real.sqrt_sq_eq_abs]

section frob
attribute [local instance] Matrix.frobeniusNormedRing

theorem sqrt_sum_eq_frob (M : Matrix (Fin n) (Fin n) ℝ) :
    √(∑ i, ∑ j, M i j * M i j) = ‖M‖ := by
  rw [Matrix.frobenius_norm_def, Real.sqrt_eq_rpow]
  congr 1
  refine Finset.sum_congr rfl fun i _ => Finset.sum_congr rfl fun j _ => ?_
  simp [sq]

theorem frob_triangle (M N : Matrix (Fin n) (Fin n) ℝ) :
    √(∑ i, ∑ j, (M i j + N i j) * (M i j + N i j))
      ≤ √(∑ i, ∑ j, M i j * M i j) + √(∑ i, ∑ j, N i j * N i j) := by
  rw [sqrt_sum_eq_frob, sqrt_sum_eq_frob]
  have := sqrt_sum_eq_frob (M + N)
  simp only [Matrix.add_apply] at this
  rw [this]
  exact norm_add_le M N

theorem frob_mul (M N : Matrix (Fin n) (Fin n) ℝ) :
    √(∑ i, ∑ j, (M * N) i j * (M * N) i j)
      ≤ √(∑ i, ∑ j, M i j * M i j) * √(∑ i, ∑ j, N i j * N i j) := by
  rw [sqrt_sum_eq_frob, sqrt_sum_eq_frob, sqrt_sum_eq_frob]
  exact norm_mul_le M N
end frob

theorem frob_zero (M : Matrix (Fin n) (Fin n) ℝ) :
    √(∑ i, ∑ j, M i j * M i j) = 0 ↔ ∀ i j, M i j = 0 := by
  have h0 : ∀ i ∈ Finset.univ, 0 ≤ ∑ j, M i j * M i j :=
    fun i _ => Finset.sum_nonneg fun j _ => mul_self_nonneg _
  rw [Real.sqrt_eq_zero (Finset.sum_nonneg h0), Finset.sum_eq_zero_iff_of_nonneg h0]
  refine forall_congr' fun i => ?_
  rw [Finset.sum_eq_zero_iff_of_nonneg fun j _ => mul_self_nonneg _]
  simp

theorem frob_smul (M : Matrix (Fin n) (Fin n) ℝ) (c : ℝ) :
    √(∑ i, ∑ j, (M i j * c) * (M i j * c)) = |c| * √(∑ i, ∑ j, M i j * M i j) := by
  have : ∑ i, ∑ j, (M i j * c) * (M i j * c) = c ^ 2 * ∑ i, ∑ j, M i j * M i j := by
    rw [Finset.mul_sum]
    refine Finset.sum_congr rfl fun i _ => ?_
    rw [Finset.mul_sum]
    exact Finset.sum_congr rfl fun k _ => by ring
  rw [this, Real.sqrt_mul (sq_nonneg c), Real.sqrt_sq_eq_abs]

end StaticMath

import Verif.Lemmas.Norm
import Mathlib.Tactic.Linarith
import Mathlib.Tactic.Positivity
import Mathlib.LinearAlgebra.Matrix.Trace

/-! # How far `Q * R` is from `A` when `R` is nearly `Qᵀ * A` and `Q` nearly orthogonal -/

namespace StaticMath
variable {n : ℕ}

/-- Frobenius norm. -/
noncomputable def frob (M : Matrix (Fin n) (Fin n) ℝ) : ℝ := √(∑ i, ∑ j, M i j ^ 2)

theorem frob_eq (M : Matrix (Fin n) (Fin n) ℝ) : frob M = √(∑ i, ∑ j, M i j * M i j) := by
  simp only [frob, sq]

theorem frob_nonneg (M : Matrix (Fin n) (Fin n) ℝ) : 0 ≤ frob M := Real.sqrt_nonneg _

theorem frob_add_le (M N : Matrix (Fin n) (Fin n) ℝ) : frob (M + N) ≤ frob M + frob N := by
  simpa only [frob_eq, Matrix.add_apply] using frob_triangle M N

theorem frob_mul_le (M N : Matrix (Fin n) (Fin n) ℝ) : frob (M * N) ≤ frob M * frob N := by
  simpa only [frob_eq] using frob_mul M N

theorem frob_sq (M : Matrix (Fin n) (Fin n) ℝ) : frob M ^ 2 = (M * M.transpose).trace := by
  have h0 : 0 ≤ ∑ i, ∑ j, M i j ^ 2 := Finset.sum_nonneg fun i _ => Finset.sum_nonneg fun j _ => sq_nonneg _
  refine (Real.sq_sqrt h0).trans ?_
  rw [Matrix.trace]
  refine Finset.sum_congr rfl fun i _ => ?_
  rw [Matrix.diag_apply, Matrix.mul_apply]
  exact Finset.sum_congr rfl fun j _ => by rw [Matrix.transpose_apply, sq]

/-- Rows and columns of a square matrix are equally far from orthonormal. -/
theorem frob_orth (Q : Matrix (Fin n) (Fin n) ℝ) : frob (Q * Q.transpose - 1) = frob (Q.transpose * Q - 1) := by
  have h : frob (Q * Q.transpose - 1) ^ 2 = frob (Q.transpose * Q - 1) ^ 2 := by
    rw [frob_sq, frob_sq]
    simp only [Matrix.transpose_sub, Matrix.transpose_mul, Matrix.transpose_transpose, Matrix.transpose_one, mul_sub,
      sub_mul, mul_one, one_mul, Matrix.trace_sub]
    have e1 : (Q * Q.transpose * (Q * Q.transpose)).trace = (Q.transpose * Q * (Q.transpose * Q)).trace := by
      rw [Matrix.mul_assoc, Matrix.trace_mul_comm]
      congr 1
      simp only [Matrix.mul_assoc]
    rw [e1, Matrix.trace_mul_comm Q Q.transpose]
  exact (pow_left_inj₀ (frob_nonneg _) (frob_nonneg _) (by norm_num)).1 h

theorem frob_le_of_le {M N : Matrix (Fin n) (Fin n) ℝ} (h : ∀ i j, |M i j| ≤ N i j) : frob M ≤ frob N := by
  refine Real.sqrt_le_sqrt (Finset.sum_le_sum fun i _ => Finset.sum_le_sum fun j _ => ?_)
  rw [← sq_abs]
  exact pow_le_pow_left₀ (abs_nonneg _) (h i j) 2

theorem frob_abs (M : Matrix (Fin n) (Fin n) ℝ) : frob (Matrix.of fun i j => |M i j|) = frob M := by
  simp only [frob, Matrix.of_apply, sq_abs]

theorem frob_transpose (M : Matrix (Fin n) (Fin n) ℝ) : frob M.transpose = frob M := by
  unfold frob
  rw [Finset.sum_comm]
  rfl

theorem frob_smul' (M : Matrix (Fin n) (Fin n) ℝ) {c : ℝ} (hc : 0 ≤ c) : frob (c • M) = c * frob M := by
  have := frob_smul M c
  rw [abs_of_nonneg hc] at this
  rw [frob_eq, frob_eq, ← this]
  simp only [Matrix.smul_apply, smul_eq_mul, mul_comm c]

theorem frob_const {c : ℝ} (hc : 0 ≤ c) : frob (Matrix.of fun _ _ : Fin n => c) = n * c := by
  unfold frob
  simp only [Matrix.of_apply, Finset.sum_const, Finset.card_univ, Fintype.card_fin, nsmul_eq_mul]
  rw [← mul_assoc, Real.sqrt_mul (by positivity), Real.sqrt_sq hc, Real.sqrt_mul_self (by positivity)]

/-- A posteriori bound. -/
theorem qr_certificate (A Q R : Matrix (Fin n) (Fin n) ℝ) {γ ε : ℝ} (hγ : 0 ≤ γ) (hε : 0 ≤ ε)
    (h : ∀ i j, |R i j - ∑ k, Q k i * A k j| ≤ γ * ∑ k, |Q k i * A k j| + ε) :
    frob (Q * R - A) ≤ frob (Q.transpose * Q - 1) * frob A + frob Q * (γ * (frob Q * frob A) + n * ε) := by
  have e : Q * R - A = (Q * Q.transpose - 1) * A + Q * (R - Q.transpose * A) := by
    rw [sub_mul, one_mul, mul_sub, Matrix.mul_assoc]
    abel
  have hE : frob (R - Q.transpose * A) ≤ γ * (frob Q * frob A) + n * ε := by
    have h1 : frob (R - Q.transpose * A) ≤
        frob (γ • ((Matrix.of fun i j => |Q.transpose i j|) * (Matrix.of fun i j => |A i j|)) +
          Matrix.of fun _ _ => ε) := by
      refine frob_le_of_le fun i j => ?_
      have := h i j
      simpa only [abs_mul, Matrix.sub_apply, Matrix.mul_apply, Matrix.transpose_apply, Matrix.add_apply,
        Matrix.smul_apply, Matrix.of_apply, smul_eq_mul] using this
    refine h1.trans ((frob_add_le _ _).trans (add_le_add ?_ (frob_const hε).le))
    rw [frob_smul' _ hγ]
    refine mul_le_mul_of_nonneg_left ((frob_mul_le _ _).trans ?_) hγ
    rw [frob_abs, frob_abs, frob_transpose]
  rw [e]
  refine (frob_add_le _ _).trans (add_le_add ((frob_mul_le _ _).trans ?_) ((frob_mul_le _ _).trans ?_))
  · rw [frob_orth]
  · exact mul_le_mul_of_nonneg_left hE (frob_nonneg _)

end StaticMath

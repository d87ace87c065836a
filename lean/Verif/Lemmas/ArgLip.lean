import Mathlib.Analysis.SpecialFunctions.Complex.Arg
import Mathlib.Analysis.SpecialFunctions.Trigonometric.Bounds

/-! # How far the argument of a complex number moves -/

namespace StaticMath

/-- The argument moves by at most `π` times the distance to a unit number, in the upper half plane. -/
theorem arg_lip {z w : ℂ} (hw : ‖w‖ = 1) (hz2 : 0 ≤ z.im) (hw2 : 0 ≤ w.im) :
    |z.arg - w.arg| ≤ Real.pi * ‖z - w‖ := by
  have hpi := Real.pi_pos
  have a1 := Complex.arg_nonneg_iff.2 hz2
  have a2 := Complex.arg_le_pi z
  have b1 := Complex.arg_nonneg_iff.2 hw2
  have b2 := Complex.arg_le_pi w
  obtain ⟨d, hd⟩ : ∃ d, d = z.arg - w.arg := ⟨_, rfl⟩
  rw [← hd]
  have h1 : ‖Complex.exp (z.arg * Complex.I) - w‖ ≤ 2 * ‖z - w‖ := by
    have e : Complex.exp (z.arg * Complex.I) - w = (Complex.exp (z.arg * Complex.I) - z) + (z - w) := by ring
    have e2 : Complex.exp (z.arg * Complex.I) - z = ((1 - ‖z‖ : ℝ) : ℂ) * Complex.exp (z.arg * Complex.I) := by
      have := Complex.norm_mul_exp_arg_mul_I z
      push_cast
      linear_combination this
    rw [e]
    refine (norm_add_le _ _).trans ?_
    rw [e2, norm_mul, Complex.norm_exp_ofReal_mul_I, mul_one, Complex.norm_real, Real.norm_eq_abs, ← hw]
    have := abs_norm_sub_norm_le w z
    rw [norm_sub_rev] at this
    linarith
  have h2 : ‖Complex.exp (z.arg * Complex.I) - w‖ ^ 2 = 4 * Real.sin (d / 2) ^ 2 := by
    have e : w = Complex.exp (w.arg * Complex.I) := by
      have := Complex.norm_mul_exp_arg_mul_I w
      rw [hw] at this
      simpa using this.symm
    rw [← Complex.normSq_eq_norm_sq]
    conv_lhs => rw [e]
    rw [Complex.normSq_apply, Complex.sub_re, Complex.sub_im, Complex.exp_ofReal_mul_I_re, Complex.exp_ofReal_mul_I_re,
      Complex.exp_ofReal_mul_I_im, Complex.exp_ofReal_mul_I_im, Real.sin_sq_eq_half_sub, mul_div_cancel₀ _ two_ne_zero, hd,
      Real.cos_sub]
    linear_combination Real.sin_sq_add_cos_sq z.arg + Real.sin_sq_add_cos_sq w.arg
  have h3 : |d| ≤ Real.pi * |Real.sin (d / 2)| := by
    have hd1 : |d| / 2 ≤ Real.pi / 2 := by
      have : |d| ≤ Real.pi := abs_le.2 ⟨by linarith, by linarith⟩
      linarith
    have := Real.mul_le_sin (by positivity : 0 ≤ |d| / 2) hd1
    have e : |Real.sin (d / 2)| = Real.sin (|d| / 2) := by
      have h0 : 0 ≤ Real.sin (|d| / 2) := Real.sin_nonneg_of_nonneg_of_le_pi (by positivity) (by linarith)
      rcases abs_cases d with ⟨h, -⟩ | ⟨h, -⟩
      · rw [h] at h0 ⊢
        exact abs_of_nonneg h0
      · rw [h, neg_div, Real.sin_neg] at h0 ⊢
        rw [abs_of_nonpos (by linarith)]
    rw [e]
    have e2 : 2 / Real.pi * (|d| / 2) = |d| / Real.pi := by field_simp
    rw [e2, div_le_iff₀ hpi] at this
    linarith
  have h4 : 2 * |Real.sin (d / 2)| ≤ 2 * ‖z - w‖ := by
    refine le_trans ?_ h1
    refine abs_le_of_sq_le_sq' ?_ (norm_nonneg _) |>.2
    rw [h2, mul_pow, sq_abs]
    norm_num
  nlinarith

end StaticMath

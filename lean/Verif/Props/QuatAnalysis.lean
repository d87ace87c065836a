import Verif.Props.QuatRotation
import Mathlib.Analysis.Normed.Algebra.QuaternionExponential
import Mathlib.Analysis.SpecialFunctions.Trigonometric.Bounds
import Mathlib.Analysis.SpecialFunctions.Trigonometric.Deriv
import Mathlib.Analysis.SpecialFunctions.Exponential

/-!
# C55-C59, C95, C96: exponential, logarithm, square root, powers, slerp, derivative of quaternions

`NormedSpace.exp` is Mathlib's exponential series.
-/

namespace StaticMath

open Quaternion

/-- components of sums, multiples and real numbers -/
local macro "hsimp" : tactic => `(tactic| simp only [Quaternion.re_add, Quaternion.imI_add,
  Quaternion.imJ_add, Quaternion.imK_add, Quaternion.re_sub, Quaternion.imI_sub, Quaternion.imJ_sub,
  Quaternion.imK_sub, Quaternion.re_smul, Quaternion.imI_smul, Quaternion.imJ_smul,
  Quaternion.imK_smul, Quaternion.re_coe, Quaternion.imI_coe, Quaternion.imJ_coe,
  Quaternion.imK_coe, Quaternion.re_neg, Quaternion.imI_neg, Quaternion.imJ_neg, Quaternion.imK_neg,
  Quaternion.re_one, Quaternion.imI_one, Quaternion.imJ_one, Quaternion.imK_one, smul_eq_mul,
  Quaternion.re_mul, Quaternion.imI_mul, Quaternion.imJ_mul, Quaternion.imK_mul,
  Quat.toH_re, Quat.toH_imI, Quat.toH_imJ, Quat.toH_imK])

section
variable [P : RealParams]

private theorem norm_im (q : Quat ℝ) : ‖q.toH.im‖ = V3.norm2 q.imag := by
  have h : ‖q.toH.im‖ * ‖q.toH.im‖ = V3.norm2 q.imag ^ 2 := by
    rw [← Quaternion.normSq_eq_norm_mul_self, Quaternion.normSq_def', V3.norm2_sq]
    simp [Quat.imag]
  have h1 : ‖q.toH.im‖ ^ 2 = V3.norm2 q.imag ^ 2 := by rw [sq, h]
  exact (pow_left_inj₀ (norm_nonneg _) (V3.norm2_nonneg _) two_ne_zero).1 h1

/-- the code's exponential in closed form -/
private theorem exp_toH (q : Quat ℝ) : q.exp.toH =
    Real.exp q.q0 • ((Real.cos (V3.norm2 q.imag) : ℍ[ℝ]) +
      (if P.eps < V3.norm2 q.imag then Real.sin (V3.norm2 q.imag) / V3.norm2 q.imag else 1) •
        q.toH.im) := by
  have e0 : q.exp.q0 = Real.exp q.q0 * Real.cos (V3.norm2 q.imag) := rfl
  have e (i : Fin 3) : q.exp.q i = q.q i *
      (if P.eps < V3.norm2 q.imag then Real.exp q.q0 * (Real.sin (V3.norm2 q.imag) / V3.norm2 q.imag)
        else Real.exp q.q0) := by
    refine (V3.smul_apply _ _ _).trans ?_
    simp only [rord_lt, decide_eq_true_eq]
    rfl
  have e' (i : Fin 3) : q.exp.q i = Real.exp q.q0 *
      ((if P.eps < V3.norm2 q.imag then Real.sin (V3.norm2 q.imag) / V3.norm2 q.imag else 1) * q.q i) := by
    rw [e]; split_ifs <;> ring
  generalize (if P.eps < V3.norm2 q.imag then Real.sin (V3.norm2 q.imag) / V3.norm2 q.imag
    else 1) = k at e' ⊢
  rw [H_ext_iff]
  refine ⟨?_, ?_, ?_, ?_⟩
  · simp [e0]
  · simp [e']
  · simp [e']
  · simp [e']

private theorem series_toH (q : Quat ℝ) : NormedSpace.exp q.toH =
    Real.exp q.q0 • ((Real.cos (V3.norm2 q.imag) : ℍ[ℝ]) +
      (Real.sin (V3.norm2 q.imag) / V3.norm2 q.imag) • q.toH.im) := by
  rw [Quaternion.exp_eq, norm_im, Real.exp_eq_exp_ℝ]
  rfl

/-! ## C55 -/

theorem C55_exp (q : Quat ℝ) :
    (V3.norm2 q.imag = 0 ∨ P.eps < V3.norm2 q.imag → q.exp.toH = NormedSpace.exp q.toH) ∧
    ‖q.exp.toH - NormedSpace.exp q.toH‖ ≤ Real.exp q.real * P.eps ^ 3 := by
  have he := P.eps_pos
  have he1 := P.eps_le
  have hn := V3.norm2_nonneg q.imag
  have exact (h : V3.norm2 q.imag = 0 ∨ P.eps < V3.norm2 q.imag) :
      q.exp.toH = NormedSpace.exp q.toH := by
    rw [exp_toH, series_toH]
    rcases h with h | h
    · have : q.toH.im = 0 := by rw [← norm_eq_zero, norm_im, h]
      simp [this]
    · rw [if_pos h]
  refine ⟨exact, ?_⟩
  by_cases h : V3.norm2 q.imag = 0 ∨ P.eps < V3.norm2 q.imag
  · rw [exact h, sub_self, norm_zero]; positivity
  · obtain ⟨h0, h1⟩ := not_or.1 h
    have hpos : 0 < V3.norm2 q.imag := lt_of_le_of_ne hn (Ne.symm h0)
    rw [exp_toH, series_toH, if_neg h1, ← smul_sub, add_sub_add_left_eq_sub, ← sub_smul, norm_smul,
      norm_smul, norm_im, Real.norm_eq_abs, Real.norm_eq_abs, abs_of_pos (Real.exp_pos _)]
    refine mul_le_mul_of_nonneg_left ?_ (Real.exp_pos _).le
    generalize V3.norm2 q.imag = n at *
    have hle : n ≤ P.eps := not_lt.1 h1
    have hs := Real.sin_gt_sub_cube hpos
    have hs' := Real.sin_lt hpos
    have : |1 - Real.sin n / n| * n = n - Real.sin n := by
      rw [abs_of_nonneg]
      · field_simp
      · rw [sub_nonneg, div_le_one hpos]; exact hs'.le
    rw [this]
    have : n ^ 3 ≤ P.eps ^ 3 := pow_le_pow_left₀ hn hle 3
    have h3 : 0 ≤ n ^ 3 := by positivity
    linarith

example : P.eps < V3.norm2 (Quat.new_from 1 3 0 4 : Quat ℝ).imag := by
  have h := V3.norm2_sq (Quat.new_from 1 3 0 4 : Quat ℝ).imag
  have h5 : V3.norm2 (Quat.new_from 1 3 0 4 : Quat ℝ).imag ^ 2 = 25 := by
    rw [h]; change (3 : ℝ) ^ 2 + 0 ^ 2 + 4 ^ 2 = 25; norm_num
  have hn := V3.norm2_nonneg (Quat.new_from 1 3 0 4 : Quat ℝ).imag
  have := P.eps_le
  nlinarith

/-! ## C56 Logarithm

The direction `q/|q|` of `q` has imaginary norm `|imag q| / |q|`. -/

omit P in
private theorem polar (N c k : ℝ) (w q : Quat ℝ) (h0 : N * c = q.q0)
    (hi : ∀ i, N * (k * w.q i) = q.q i) :
    N • ((c : ℍ[ℝ]) + k • w.toH.im) = q.toH := by
  rw [H_ext_iff]
  refine ⟨?_, ?_, ?_, ?_⟩ <;> simp [h0, hi]

private theorem ln_facts (q : Quat ℝ) (hq : q.toH ≠ 0) (ht : q.Truthful)
    (h : V3.norm2 q.imag = 0 ∨ P.eps * ‖q.toH‖ < V3.norm2 q.imag) :
    q.ln.q0 = Real.log ‖q.toH‖ ∧ V3.norm2 q.ln.imag = Complex.arg ⟨q.q0, V3.norm2 q.imag⟩ ∧
    (V3.norm2 q.ln.imag = 0 ∨ V3.norm2 q.imag / ‖q.toH‖ ≤ V3.norm2 q.ln.imag) ∧
    NormedSpace.exp q.ln.toH = q.toH ∧
    (V3.norm2 q.imag = 0 → V3.norm2 q.ln.imag = 0 ∨ V3.norm2 q.ln.imag = Real.pi) := by
  have he := P.eps_pos
  have hN : 0 < ‖q.toH‖ := norm_pos_iff.2 hq
  have hNn := (C42_norm2 q q).2.1
  obtain ⟨u, hu, hu0, hui⟩ : ∃ u : Quat ℝ, q.normalize_a = (u, ‖q.toH‖) ∧ u.q0 = q.q0 / ‖q.toH‖ ∧
      ∀ i, u.q i = q.q i / ‖q.toH‖ := by
    unfold Quat.normalize_a
    by_cases hf : q.normalized = true
    · have h1 : ‖q.toH‖ = 1 := by
        have := ht hf
        rw [Quaternion.normSq_eq_norm_mul_self] at this
        rcases mul_self_eq_one_iff.1 this with h1 | h1
        · exact h1
        · linarith
      refine ⟨q, ?_, ?_, ?_⟩
      · simp only [hf, if_true, h1]
      · rw [h1, div_one]
      · intro i; rw [h1, div_one]
    · refine ⟨⟨(q.sdiv ‖q.toH‖).q0, (q.sdiv ‖q.toH‖).q, true⟩, ?_, ?_, ?_⟩
      · simp only [hf, Bool.false_eq_true, if_false, hNn]
      · rfl
      · intro i; exact V3.sdiv_apply _ _ _
  have hsq : q.q0 ^ 2 + V3.norm2 q.imag ^ 2 = ‖q.toH‖ ^ 2 := by
    rw [V3.norm2_sq, sq ‖q.toH‖, ← Quaternion.normSq_eq_norm_mul_self, Quaternion.normSq_def']
    simp only [Quat.toH_re, Quat.toH_imI, Quat.toH_imJ, Quat.toH_imK, Quat.imag]; ring
  have hn := V3.norm2_nonneg q.imag
  have hnu : V3.norm2 u.imag = V3.norm2 q.imag / ‖q.toH‖ := by
    have h1 : V3.norm2 u.imag ^ 2 = (V3.norm2 q.imag / ‖q.toH‖) ^ 2 := by
      rw [V3.norm2_sq, div_pow, V3.norm2_sq]
      simp only [Quat.imag, hui]; ring
    exact (pow_left_inj₀ (V3.norm2_nonneg _) (div_nonneg hn hN.le) two_ne_zero).1 h1
  have harg : Complex.arg ⟨u.q0, V3.norm2 u.imag⟩ = Complex.arg ⟨q.q0, V3.norm2 q.imag⟩ := by
    rw [← Complex.arg_real_mul _ hN]
    congr 1
    rw [hu0, hnu]
    apply Complex.ext <;> simp <;> field_simp
  obtain ⟨hsin, hcos⟩ := arg_sin_cos' _ _ _ hN hsq
  have hA : 0 ≤ Complex.arg ⟨q.q0, V3.norm2 q.imag⟩ := Complex.arg_nonneg_iff.2 hn
  have hln0 : q.ln.q0 = Real.log ‖q.toH‖ := by
    unfold Quat.ln
    rw [hu]
    simp only
    split_ifs <;> rfl
  have hlni : q.ln.q = if P.eps < V3.norm2 u.imag
      then V3.smul u.q (Complex.arg ⟨q.q0, V3.norm2 q.imag⟩ / V3.norm2 u.imag)
      else ⟨![Complex.arg ⟨q.q0, V3.norm2 q.imag⟩, 0, 0]⟩ := by
    rw [← harg]
    unfold Quat.ln
    rw [hu]
    simp only [rord_lt, decide_eq_true_eq]
    split_ifs with h1 h2 h2
    · rfl
    · exact absurd h1 h2
    · exact absurd h2 h1
    · rfl
  have hser := series_toH q.ln
  rw [hln0, Real.exp_log hN] at hser
  rcases h with h | h
  · -- real quaternion
    have hnot : ¬ P.eps < V3.norm2 u.imag := by rw [hnu, h, zero_div]; linarith
    rw [if_neg hnot] at hlni
    have hni : V3.norm2 q.ln.imag = Complex.arg ⟨q.q0, V3.norm2 q.imag⟩ := by
      have h1 : V3.norm2 q.ln.imag ^ 2 = Complex.arg ⟨q.q0, V3.norm2 q.imag⟩ ^ 2 := by
        rw [V3.norm2_sq, Quat.imag, hlni]
        change (Complex.arg ⟨q.q0, V3.norm2 q.imag⟩) ^ 2 + 0 ^ 2 + 0 ^ 2 = _
        ring
      exact (pow_left_inj₀ (V3.norm2_nonneg _) hA two_ne_zero).1 h1
    have h01 : V3.norm2 q.ln.imag = 0 ∨ V3.norm2 q.ln.imag = Real.pi := by
      rw [hni, h]
      rcases le_or_gt 0 q.q0 with h0 | h0
      · left; exact Complex.arg_eq_zero_iff.2 ⟨h0, rfl⟩
      · right; exact Complex.arg_eq_pi_iff.2 ⟨h0, rfl⟩
    refine ⟨hln0, hni, ?_, ?_, fun _ => h01⟩
    · rw [h, zero_div]; exact Or.inr (V3.norm2_nonneg _)
    · rw [hser, hni, hsin, hcos, h]
      have hz : q.q = V3.zero := (V3.norm2_zero _).1 h
      refine polar _ _ _ _ _ (by field_simp) fun i => ?_
      rw [hz, V3.zero_apply]; ring
  · have hgt : P.eps < V3.norm2 u.imag := by rw [hnu, lt_div_iff₀ hN]; exact h
    have hnq : 0 < V3.norm2 q.imag := lt_trans (mul_pos he hN) h
    have hnup : 0 < V3.norm2 u.imag := lt_trans he hgt
    have hApos : 0 < Complex.arg ⟨q.q0, V3.norm2 q.imag⟩ := by
      refine lt_of_le_of_ne hA fun h0 => ?_
      rw [← h0, Real.sin_zero] at hsin
      have := div_pos hnq hN
      linarith
    rw [if_pos hgt] at hlni
    have hi (i : Fin 3) : q.ln.q i = q.q i * (Complex.arg ⟨q.q0, V3.norm2 q.imag⟩ / V3.norm2 q.imag) := by
      rw [hlni, V3.smul_apply, hnu, hui]
      field_simp
    have hni : V3.norm2 q.ln.imag = Complex.arg ⟨q.q0, V3.norm2 q.imag⟩ := by
      have h1 : V3.norm2 q.ln.imag ^ 2 = Complex.arg ⟨q.q0, V3.norm2 q.imag⟩ ^ 2 := by
        rw [V3.norm2_sq, Quat.imag, hi, hi, hi]
        have h2 := V3.norm2_sq q.imag
        have : (q.q 0 * (Complex.arg ⟨q.q0, V3.norm2 q.imag⟩ / V3.norm2 q.imag)) ^ 2
          + (q.q 1 * (Complex.arg ⟨q.q0, V3.norm2 q.imag⟩ / V3.norm2 q.imag)) ^ 2
          + (q.q 2 * (Complex.arg ⟨q.q0, V3.norm2 q.imag⟩ / V3.norm2 q.imag)) ^ 2
          = Complex.arg ⟨q.q0, V3.norm2 q.imag⟩ ^ 2 * ((q.q 0 ^ 2 + q.q 1 ^ 2 + q.q 2 ^ 2)
            / V3.norm2 q.imag ^ 2) := by field_simp
        rw [this, ← (show V3.norm2 q.imag ^ 2 = q.q 0 ^ 2 + q.q 1 ^ 2 + q.q 2 ^ 2 from h2),
          div_self (pow_ne_zero _ hnq.ne'), mul_one]
      exact (pow_left_inj₀ (V3.norm2_nonneg _) hA two_ne_zero).1 h1
    refine ⟨hln0, hni, Or.inr ?_, ?_, fun h0 => absurd h0 hnq.ne'⟩
    · rw [hni, ← hsin]; exact Real.sin_le hA
    · rw [hser, hni, hsin, hcos]
      generalize Complex.arg ⟨q.q0, V3.norm2 q.imag⟩ = A at *
      have hAne : A ≠ 0 := hApos.ne'
      have hNne := hN.ne'
      have hnne := hnq.ne'
      refine polar _ _ _ _ _ (by field_simp) fun i => ?_
      rw [hi]; field_simp

theorem C56_exp_ln (q : Quat ℝ) (hq : q.toH ≠ 0) (ht : q.Truthful)
    (h : V3.norm2 q.imag = 0 ∨ P.eps * ‖q.toH‖ < V3.norm2 q.imag) :
    q.ln.exp.toH = q.toH ∧ NormedSpace.exp q.ln.toH = q.toH ∧ q.ln.real = Real.log ‖q.toH‖ ∧
    V3.norm2 q.ln.imag ≤ Real.pi := by
  have he := P.eps_pos
  have he1 := P.eps_le
  obtain ⟨h1, h2, h3, h4, h5⟩ := ln_facts q hq ht h
  refine ⟨?_, h4, h1, ?_⟩
  · rw [(C55_exp q.ln).1, h4]
    rcases h with h | h
    · rcases h5 h with h6 | h6
      · exact Or.inl h6
      · right; rw [h6]; have := Real.two_le_pi; norm_num at he1; linarith
    · rcases h3 with h6 | h6
      · exact Or.inl h6
      · right
        have : P.eps < V3.norm2 q.imag / ‖q.toH‖ := by
          rw [lt_div_iff₀ (norm_pos_iff.2 hq)]; exact h
        linarith
  · rw [h2]; exact Complex.arg_le_pi _

/-- a quaternion with negative real part meeting all the hypotheses -/
example : (Quat.new_from (-3) 0 4 0 : Quat ℝ).toH ≠ 0 ∧ (Quat.new_from (-3) 0 4 0 : Quat ℝ).Truthful ∧
    P.eps * ‖(Quat.new_from (-3) 0 4 0 : Quat ℝ).toH‖ < V3.norm2 (Quat.new_from (-3) 0 4 0 : Quat ℝ).imag := by
  have h5 : ‖(Quat.new_from (-3) 0 4 0 : Quat ℝ).toH‖ ^ 2 = 25 := by
    rw [sq, ← Quaternion.normSq_eq_norm_mul_self, Quaternion.normSq_def']
    change (-3 : ℝ) ^ 2 + 0 ^ 2 + 4 ^ 2 + 0 ^ 2 = 25
    norm_num
  have h4 : V3.norm2 (Quat.new_from (-3) 0 4 0 : Quat ℝ).imag ^ 2 = 16 := by
    rw [V3.norm2_sq]
    change (0 : ℝ) ^ 2 + 4 ^ 2 + 0 ^ 2 = 16
    norm_num
  have hn := V3.norm2_nonneg (Quat.new_from (-3) 0 4 0 : Quat ℝ).imag
  have hN := norm_nonneg (Quat.new_from (-3) 0 4 0 : Quat ℝ).toH
  have he := P.eps_pos
  have he1 := P.eps_le
  refine ⟨fun h0 => ?_, fun h => by simp [Quat.new_from] at h, ?_⟩
  · rw [h0, norm_zero] at h5; norm_num at h5
  · have : V3.norm2 (Quat.new_from (-3) 0 4 0 : Quat ℝ).imag = 4 := by nlinarith
    have : ‖(Quat.new_from (-3) 0 4 0 : Quat ℝ).toH‖ = 5 := by nlinarith
    norm_num at he1
    nlinarith

/-! ## C57 Square root

The condition is `2 ε` instead of `ε` because the exponential is taken of half the logarithm. -/

private theorem imag_smul (x : Quat ℝ) (c : ℝ) (hc : 0 ≤ c) :
    V3.norm2 (x.smul c).imag = c * V3.norm2 x.imag := by
  have h1 : V3.norm2 (x.smul c).imag ^ 2 = (c * V3.norm2 x.imag) ^ 2 := by
    have e (i : Fin 3) : (x.smul c).imag i = x.q i * c := V3.smul_apply _ _ _
    rw [V3.norm2_sq, mul_pow, V3.norm2_sq, e, e, e]
    simp only [Quat.imag]; ring
  exact (pow_left_inj₀ (V3.norm2_nonneg _) (mul_nonneg hc (V3.norm2_nonneg _)) two_ne_zero).1 h1

theorem C57_sqrt (q : Quat ℝ) (hq : q.toH ≠ 0) (ht : q.Truthful)
    (h : V3.norm2 q.imag = 0 ∨ 2 * P.eps * ‖q.toH‖ < V3.norm2 q.imag) :
    q.sqrt.toH * q.sqrt.toH = q.toH ∧ 0 ≤ q.sqrt.real := by
  have he := P.eps_pos
  have he1 := P.eps_le
  have hN : 0 < ‖q.toH‖ := norm_pos_iff.2 hq
  have hw : V3.norm2 q.imag = 0 ∨ P.eps * ‖q.toH‖ < V3.norm2 q.imag := by
    rcases h with h | h
    · exact Or.inl h
    · right; nlinarith [mul_pos he hN]
  obtain ⟨h1, h2, h3, h4, h5⟩ := ln_facts q hq ht hw
  have hhalf : q.sqrt = (q.ln.smul (1 / 2)).exp := by
    change (q.ln.smul (1 / (1 + 1))).exp = _
    rw [one_add_one_eq_two]
  have hi := imag_smul q.ln (1 / 2) (by norm_num)
  have hcond : V3.norm2 (q.ln.smul (1 / 2)).imag = 0 ∨ P.eps < V3.norm2 (q.ln.smul (1 / 2)).imag := by
    rw [hi]
    rcases h with h | h
    · rcases h5 h with h6 | h6
      · left; rw [h6, mul_zero]
      · right; rw [h6]; have := Real.two_le_pi; norm_num at he1; linarith
    · rcases h3 with h6 | h6
      · left; rw [h6, mul_zero]
      · right
        have : 2 * P.eps < V3.norm2 q.imag / ‖q.toH‖ := by rw [lt_div_iff₀ hN]; exact h
        linarith
  constructor
  · let _ : NormedAlgebra ℚ ℍ[ℝ] := .restrictScalars ℚ ℝ ℍ[ℝ]
    rw [hhalf, (C55_exp _).1 hcond, Quat.toH_smul,
      ← NormedSpace.exp_add_of_commute (Commute.refl _), ← add_smul]
    norm_num
    exact h4
  · rw [hhalf]
    change 0 ≤ Real.exp (q.ln.smul (1 / 2)).q0 * Real.cos (V3.norm2 (q.ln.smul (1 / 2)).imag)
    refine mul_nonneg (Real.exp_pos _).le (Real.cos_nonneg_of_neg_pi_div_two_le_of_le ?_ ?_)
    · have := V3.norm2_nonneg (q.ln.smul (1 / 2)).imag
      have := Real.pi_pos; linarith
    · rw [hi, h2]
      have := Complex.arg_le_pi ⟨q.q0, V3.norm2 q.imag⟩
      linarith

example : 2 * P.eps * ‖(Quat.new_imag ⟨![0, 1, 0]⟩ : Quat ℝ).toH‖
    < V3.norm2 (Quat.new_imag ⟨![0, 1, 0]⟩ : Quat ℝ).imag := by
  have h5 : ‖(Quat.new_imag ⟨![0, 1, 0]⟩ : Quat ℝ).toH‖ ^ 2 = 1 := by
    rw [sq, ← Quaternion.normSq_eq_norm_mul_self, Quaternion.normSq_def']
    change (0 : ℝ) ^ 2 + 0 ^ 2 + 1 ^ 2 + 0 ^ 2 = 1
    norm_num
  have h4 : V3.norm2 (Quat.new_imag ⟨![0, 1, 0]⟩ : Quat ℝ).imag ^ 2 = 1 := by
    rw [V3.norm2_sq]
    change (0 : ℝ) ^ 2 + 1 ^ 2 + 0 ^ 2 = 1
    norm_num
  have hn := V3.norm2_nonneg (Quat.new_imag ⟨![0, 1, 0]⟩ : Quat ℝ).imag
  have hN := norm_nonneg (Quat.new_imag ⟨![0, 1, 0]⟩ : Quat ℝ).toH
  have he1 := P.eps_le
  have : V3.norm2 (Quat.new_imag ⟨![0, 1, 0]⟩ : Quat ℝ).imag = 1 := by nlinarith
  have : ‖(Quat.new_imag ⟨![0, 1, 0]⟩ : Quat ℝ).toH‖ = 1 := by nlinarith
  norm_num at he1
  nlinarith

/-! ## C96 Powers -/

theorem C96_pow (q : Quat ℝ) (n : ℕ) (hq : q.toH ≠ 0) (ht : q.Truthful)
    (h : V3.norm2 q.imag = 0 ∨ P.eps * ‖q.toH‖ < V3.norm2 q.imag) :
    (q.pow (Quat.new_real (n : ℝ))).toH = q.toH ^ n := by
  have he := P.eps_pos
  have he1 := P.eps_le
  have hN : 0 < ‖q.toH‖ := norm_pos_iff.2 hq
  obtain ⟨h1, h2, h3, h4, h5⟩ := ln_facts q hq ht h
  have hr : (Quat.new_real (n : ℝ)).mul q.ln = q.ln.smul (n : ℝ) := by
    refine Quat.ext ?_ (Vec.ext3 ?_ ?_ ?_) rfl
    · rw [Quat.mul_q0]
      change (n : ℝ) * q.ln.q0 - 0 * q.ln.q 0 - 0 * q.ln.q 1 - 0 * q.ln.q 2 = q.ln.q0 * n
      ring
    · rw [Quat.mul_qi]
      change (n : ℝ) * q.ln.q 0 + 0 * q.ln.q0 + 0 * q.ln.q 2 - 0 * q.ln.q 1 = q.ln.q 0 * n
      ring
    · rw [Quat.mul_qj]
      change (n : ℝ) * q.ln.q 1 - 0 * q.ln.q 2 + 0 * q.ln.q0 + 0 * q.ln.q 0 = q.ln.q 1 * n
      ring
    · rw [Quat.mul_qk]
      change (n : ℝ) * q.ln.q 2 + 0 * q.ln.q 1 - 0 * q.ln.q 0 + 0 * q.ln.q0 = q.ln.q 2 * n
      ring
  have hi := imag_smul q.ln n (Nat.cast_nonneg n)
  have hcond : V3.norm2 (q.ln.smul n).imag = 0 ∨ P.eps < V3.norm2 (q.ln.smul n).imag := by
    rw [hi]
    rcases Nat.eq_zero_or_pos n with h0 | h0
    · left; rw [h0, Nat.cast_zero, zero_mul]
    · have hn1 : (1 : ℝ) ≤ n := by exact_mod_cast h0
      rcases h with h | h
      · rcases h5 h with h6 | h6
        · left; rw [h6, mul_zero]
        · right; rw [h6]; have := Real.two_le_pi; norm_num at he1; nlinarith
      · rcases h3 with h6 | h6
        · left; rw [h6, mul_zero]
        · right
          have : P.eps < V3.norm2 q.imag / ‖q.toH‖ := by rw [lt_div_iff₀ hN]; exact h
          nlinarith
  let _ : NormedAlgebra ℚ ℍ[ℝ] := .restrictScalars ℚ ℝ ℍ[ℝ]
  unfold Quat.pow
  rw [hr, (C55_exp _).1 hcond, Quat.toH_smul, ← h4, ← NormedSpace.exp_nsmul, Nat.cast_smul_eq_nsmul]

/-! ## C59 Derivative -/

theorem C59_derivative (q : Quat ℝ) (w : Vec 3 ℝ) :
    (w ≠ V3.zero → ∃ f : ℝ → Quat ℝ, (∀ t, Quat.rotation (V3.norm2 w * t) w = .ok (f t)) ∧
      HasDerivAt (fun t => ((f t).mul q).toH) (q.derivative w).toH 0) ∧
    (w = V3.zero → (q.derivative w).toH = 0) ∧
    q.dot (q.derivative w) = 0 := by
  have hd : (q.derivative w).toH = (1 / 2 : ℝ) • w.toH * q.toH := by
    change (((Quat.new_imag w).smul (1 / (1 + 1))).mul q).toH = _
    rw [Quat.toH_mul, Quat.toH_smul, one_add_one_eq_two, Quat.toH_new_imag]
  refine ⟨fun hw => ?_, fun hw => ?_, ?_⟩
  · have hn : V3.norm2 w ≠ 0 := fun h0 => hw ((V3.norm2_zero w).1 h0)
    refine ⟨fun t => ⟨Real.cos (V3.norm2 w * t / 2),
      ⟨fun i => w i / V3.norm2 w * Real.sin (V3.norm2 w * t / 2)⟩, true⟩, fun t => ?_, ?_⟩
    · rw [Quat.rotation_eq, if_neg hn]
    · rw [hd]
      generalize V3.norm2 w = n at *
      have hlin : HasDerivAt (fun t : ℝ => n * t / 2) (n / 2) 0 := by
        have := (hasDerivAt_id (0 : ℝ)).const_mul (n / 2)
        rw [mul_one] at this
        refine this.congr_of_eventuallyEq (Filter.Eventually.of_forall fun t => ?_)
        simp only [id]; ring
      have hc := (Real.hasDerivAt_cos (n * 0 / 2)).comp (0 : ℝ) hlin
      have hs := (Real.hasDerivAt_sin (n * 0 / 2)).comp (0 : ℝ) hlin
      simp only [mul_zero, zero_div, Real.sin_zero, Real.cos_zero, neg_zero, zero_mul, one_mul] at hc hs
      have hH : HasDerivAt (fun t => (Real.cos (n * t / 2)) • (1 : ℍ[ℝ])
          + (Real.sin (n * t / 2)) • (n⁻¹ • w.toH)) ((1 / 2 : ℝ) • w.toH) 0 := by
        have := (hc.smul_const (1 : ℍ[ℝ])).add (hs.smul_const (n⁻¹ • w.toH))
        have e : (0 : ℝ) • (1 : ℍ[ℝ]) + (n / 2) • n⁻¹ • w.toH = (1 / 2 : ℝ) • w.toH := by
          rw [zero_smul, zero_add, smul_smul]
          congr 1
          field_simp
        rw [e] at this
        exact this
      have := hH.mul_const q.toH
      refine this.congr_of_eventuallyEq (Filter.Eventually.of_forall fun t => ?_)
      simp only
      rw [Quat.toH_mul]
      congr 1
      rw [H_ext_iff]
      refine ⟨?_, ?_, ?_, ?_⟩
      · simp [Vec.toH_re]
      · simp [Vec.toH_imI]; ring
      · simp [Vec.toH_imJ]; ring
      · simp [Vec.toH_imK]; ring
  · rw [hd, hw]
    have : (V3.zero : Vec 3 ℝ).toH = 0 := rfl
    rw [this, smul_zero, zero_mul]
  · have h0 : (q.derivative w).q0 = _ := congrArg (fun x : ℍ[ℝ] => x.re) hd
    have h1 : (q.derivative w).q 0 = _ := congrArg (fun x : ℍ[ℝ] => x.imI) hd
    have h2 : (q.derivative w).q 1 = _ := congrArg (fun x : ℍ[ℝ] => x.imJ) hd
    have h3 : (q.derivative w).q 2 = _ := congrArg (fun x : ℍ[ℝ] => x.imK) hd
    change q.q0 * (q.derivative w).q0 + (q.q 0 * (q.derivative w).q 0 + q.q 1 * (q.derivative w).q 1
      + q.q 2 * (q.derivative w).q 2) = 0
    rw [h0, h1, h2, h3]
    simp only [Quaternion.re_mul, Quaternion.imI_mul, Quaternion.imJ_mul, Quaternion.imK_mul,
      Quaternion.re_smul, Quaternion.imI_smul, Quaternion.imJ_smul, Quaternion.imK_smul,
      Vec.toH_re, Vec.toH_imI, Vec.toH_imJ, Vec.toH_imK, Quat.toH_re, Quat.toH_imI, Quat.toH_imJ,
      Quat.toH_imK, smul_eq_mul]
    ring

example : (⟨![1, 2, 3]⟩ : Vec 3 ℝ) ≠ V3.zero := fun h => by
  have := congrArg (fun v : Vec 3 ℝ => v 0) h
  simp [V3.zero_apply] at this

/-! ## C58 Slerp

False in the branch for nearly parallel arguments, where components 1 and 2 of `b` are swapped, and
(for negative dot product) the zero quaternion is returned. -/

omit P in
private theorem dot_expand (a b : Quat ℝ) : a.dot b =
    a.q0 * b.q0 + a.q 0 * b.q 0 + a.q 1 * b.q 1 + a.q 2 * b.q 2 := by
  change a.q0 * b.q0 + (a.q 0 * b.q 0 + a.q 1 * b.q 1 + a.q 2 * b.q 2) = _
  ring

private theorem slerp_parallel (a b : Quat ℝ) (t : ℝ) (h : 1 ≤ |a.dot b|) : Quat.slerp a b t = a := by
  unfold Quat.slerp
  simp only [rord_le, rabs_abs, h, decide_true, if_true]

private theorem slerp_near (a b : Quat ℝ) (t : ℝ) (h : |a.dot b| < 1)
    (hs : √(1 - |a.dot b| * |a.dot b|) < 1 / 1000) :
    Quat.slerp a b t = if a.dot b < 0 then Quat.zero else
      ⟨(1 - t) * a.q0 + t * b.q0, ⟨![(1 - t) * a.q 0 + t * b.q 0, (1 - t) * a.q 1 + t * b.q 2,
        (1 - t) * a.q 2 + t * b.q 1]⟩, false⟩ := by
  unfold Quat.slerp
  have hab : (if a.dot b < 0 then -a.dot b else a.dot b) = |a.dot b| := by
    split_ifs with h0
    · rw [abs_of_neg h0]
    · rw [abs_of_nonneg (not_lt.1 h0)]
  simp only [rord_le, rord_lt, rabs_abs, not_le.2 h, decide_false, Bool.false_eq_true, if_false,
    decide_eq_true_eq, hab, rfloat_sqrt, rfloat_lit0001, abs_of_nonneg (Real.sqrt_nonneg _), hs, if_true]
  by_cases h0 : a.dot b < 0
  · simp [h0]
  · simp only [h0, decide_false, Bool.not_false, if_true, if_false]
    rfl

theorem slerp_main (a b : Quat ℝ) (t : ℝ) (h : |a.dot b| < 1)
    (hs : ¬ √(1 - |a.dot b| * |a.dot b|) < 1 / 1000) (sg : ℝ)
    (hsg : sg = if a.dot b < 0 then -1 else 1) (S th : ℝ) (hS : S = √(1 - |a.dot b| * |a.dot b|))
    (hth : th = Real.arccos |a.dot b|) :
    (Quat.slerp a b t).q0 = Real.sin ((1 - t) * th) / S * a.q0 + Real.sin (t * th) / S * (sg * b.q0) ∧
    ∀ i, (Quat.slerp a b t).q i
      = Real.sin ((1 - t) * th) / S * a.q i + Real.sin (t * th) / S * (sg * b.q i) := by
  subst hS hth
  unfold Quat.slerp
  have hab : (if a.dot b < 0 then -a.dot b else a.dot b) = |a.dot b| := by
    split_ifs with h0
    · rw [abs_of_neg h0]
    · rw [abs_of_nonneg (not_lt.1 h0)]
  simp only [rord_le, rord_lt, rabs_abs, not_le.2 h, decide_false, Bool.false_eq_true, if_false,
    decide_eq_true_eq, hab, rfloat_sqrt, rfloat_lit0001, abs_of_nonneg (Real.sqrt_nonneg _), hs,
    rfloat_acos, rfloat_sin]
  by_cases h0 : a.dot b < 0
  · simp only [h0, if_true] at hsg
    simp only [h0, decide_true, Bool.not_true, Bool.false_eq_true, if_false, hsg, V3.sub_apply,
      V3.smul_apply]
    exact ⟨by ring, fun i => by ring⟩
  · simp only [h0, if_false] at hsg
    simp only [h0, decide_false, Bool.not_false, if_true, hsg, V3.add_apply, V3.smul_apply]
    exact ⟨by ring, fun i => by ring⟩

/-- C58 is false: two unit quaternions `a`, `b` with `slerp(a,b,1)` neither `b` nor `-b`. -/
theorem C58_slerp_end_false : ∃ a b : Quat ℝ, normSq a.toH = 1 ∧ normSq b.toH = 1 ∧
    (Quat.slerp a b 1).toH ≠ b.toH ∧ (Quat.slerp a b 1).toH ≠ -b.toH := by
  have hs : √(1 - (99999999 / 100000001 : ℝ) * (99999999 / 100000001)) = 20000 / 100000001 := by
    rw [show (1 - (99999999 / 100000001 : ℝ) * (99999999 / 100000001)) = (20000 / 100000001) ^ 2 by
      norm_num]
    exact Real.sqrt_sq (by norm_num)
  have hd : Quat.dot (Quat.new_from 1 0 0 0 : Quat ℝ)
      (Quat.new_from (99999999 / 100000001) 0 (20000 / 100000001) 0) = 99999999 / 100000001 := by
    rw [dot_expand]
    simp only [Quat.new_from_0, Quat.new_from_1, Quat.new_from_2, Quat.new_from_3]
    norm_num
  have hda : |(99999999 / 100000001 : ℝ)| = 99999999 / 100000001 := abs_of_pos (by norm_num)
  have hsl : (Quat.slerp (Quat.new_from 1 0 0 0 : Quat ℝ)
      (Quat.new_from (99999999 / 100000001) 0 (20000 / 100000001) 0) 1).q 1 = 0 := by
    rw [slerp_near _ _ _ (by rw [hd, hda]; norm_num) (by rw [hd, hda, hs]; norm_num), hd,
      if_neg (by norm_num)]
    change (1 - 1) * (0 : ℝ) + 1 * 0 = 0
    ring
  refine ⟨Quat.new_from 1 0 0 0, Quat.new_from (99999999 / 100000001) 0 (20000 / 100000001) 0,
    ?_, ?_, ?_, ?_⟩
  · rw [Quat.unit_iff]
    simp only [Quat.new_from_0, Quat.new_from_1, Quat.new_from_2, Quat.new_from_3]; norm_num
  · rw [Quat.unit_iff]
    simp only [Quat.new_from_0, Quat.new_from_1, Quat.new_from_2, Quat.new_from_3]; norm_num
  · intro h
    have h2 : _ = (20000 / 100000001 : ℝ) := congrArg (fun x : ℍ[ℝ] => x.imJ) h
    rw [Quat.toH_imJ, hsl] at h2
    norm_num at h2
  · intro h
    have h2 : _ = -(20000 / 100000001 : ℝ) := congrArg (fun x : ℍ[ℝ] => x.imJ) h
    rw [Quat.toH_imJ, hsl] at h2
    norm_num at h2

/-- C58 is false: for the same `a` and `-b` the result is the zero quaternion for every `t`. -/
theorem C58_slerp_zero_false : ∃ a b : Quat ℝ, normSq a.toH = 1 ∧ normSq b.toH = 1 ∧
    ∀ t, (Quat.slerp a b t).toH = 0 := by
  have hs : √(1 - (99999999 / 100000001 : ℝ) * (99999999 / 100000001)) = 20000 / 100000001 := by
    rw [show (1 - (99999999 / 100000001 : ℝ) * (99999999 / 100000001)) = (20000 / 100000001) ^ 2 by
      norm_num]
    exact Real.sqrt_sq (by norm_num)
  have hd : Quat.dot (Quat.new_from 1 0 0 0 : Quat ℝ)
      (Quat.new_from (-(99999999 / 100000001)) 0 (20000 / 100000001) 0) = -(99999999 / 100000001) := by
    rw [dot_expand]
    simp only [Quat.new_from_0, Quat.new_from_1, Quat.new_from_2, Quat.new_from_3]
    norm_num
  have hda : |(-(99999999 / 100000001) : ℝ)| = 99999999 / 100000001 := by
    rw [abs_neg]; exact abs_of_pos (by norm_num)
  refine ⟨Quat.new_from 1 0 0 0, Quat.new_from (-(99999999 / 100000001)) 0 (20000 / 100000001) 0,
    ?_, ?_, fun t => ?_⟩
  · rw [Quat.unit_iff]
    simp only [Quat.new_from_0, Quat.new_from_1, Quat.new_from_2, Quat.new_from_3]; norm_num
  · rw [Quat.unit_iff]
    simp only [Quat.new_from_0, Quat.new_from_1, Quat.new_from_2, Quat.new_from_3]; norm_num
  · rw [slerp_near _ _ _ (by rw [hd, hda]; norm_num) (by rw [hd, hda, hs]; norm_num), hd,
      if_pos (by norm_num), Quat.toH_zero]

/-- What holds: for unit quaternions whose angle has sine at least 0.001 (or whose dot product is
`±1`), `slerp` is a unit quaternion, runs from `a` to `b` or `-b` (whichever is nearer), and its
angle to `a` grows linearly with `t`, along the shorter arc. Missing: nearly parallel arguments that
are not parallel (false). -/
theorem C58_slerp_partial (a b : Quat ℝ) (t : ℝ) (ha : normSq a.toH = 1) (hb : normSq b.toH = 1)
    (h : |a.dot b| = 1 ∨ (1 / 1000) ^ 2 ≤ 1 - a.dot b ^ 2) :
    normSq (Quat.slerp a b t).toH = 1 ∧
    (Quat.slerp a b 0).toH = a.toH ∧
    (Quat.slerp a b 1).toH = (if a.dot b < 0 then -b.toH else b.toH) ∧
    a.dot (Quat.slerp a b t) = Real.cos (t * Real.arccos |a.dot b|) ∧
    0 ≤ Real.arccos |a.dot b| ∧ Real.arccos |a.dot b| ≤ Real.pi / 2 := by
  have hu := (Quat.unit_iff a).1 ha
  have hv := (Quat.unit_iff b).1 hb
  refine and_assoc.1 (and_assoc.1 (and_assoc.1 ⟨?_, Real.arccos_nonneg _,
    Real.arccos_le_pi_div_two.2 (abs_nonneg _)⟩))
  rcases h with h | h
  · -- `b = ±a`
    have hp (x : ℝ) : Quat.slerp a b x = a := slerp_parallel a b x h.ge
    simp only [hp]
    rw [h, Real.arccos_one, mul_zero, Real.cos_zero, Quat.dot_self, Quat.abs2_eq]
    refine ⟨⟨⟨ha, trivial⟩, ?_⟩, ha⟩
    have hd := dot_expand a b
    split_ifs with hneg
    · have h1 : a.dot b = -1 := by rw [abs_of_neg hneg] at h; linarith
      rw [h1] at hd
      have hz : (a.q0 + b.q0) ^ 2 + (a.q 0 + b.q 0) ^ 2 + (a.q 1 + b.q 1) ^ 2 + (a.q 2 + b.q 2) ^ 2 = 0 := by
        linear_combination hu + hv - 2 * hd
      obtain ⟨z0, z1, z2, z3⟩ := four_sq hz
      rw [H_ext_iff]
      exact ⟨eq_neg_of_add_eq_zero_left z0, eq_neg_of_add_eq_zero_left z1,
        eq_neg_of_add_eq_zero_left z2, eq_neg_of_add_eq_zero_left z3⟩
    · have h1 : a.dot b = 1 := by rw [abs_of_nonneg (not_lt.1 hneg)] at h; linarith
      rw [h1] at hd
      have hz : (a.q0 - b.q0) ^ 2 + (a.q 0 - b.q 0) ^ 2 + (a.q 1 - b.q 1) ^ 2 + (a.q 2 - b.q 2) ^ 2 = 0 := by
        linear_combination hu + hv + 2 * hd
      obtain ⟨z0, z1, z2, z3⟩ := four_sq hz
      rw [H_ext_iff]
      exact ⟨sub_eq_zero.1 z0, sub_eq_zero.1 z1, sub_eq_zero.1 z2, sub_eq_zero.1 z3⟩
  · have hlt : |a.dot b| < 1 := by
      rw [← sq_lt_one_iff_abs_lt_one]; norm_num at h; linarith
    have hsq : |a.dot b| * |a.dot b| = a.dot b ^ 2 := by rw [abs_mul_abs_self, sq]
    have hns : ¬ √(1 - |a.dot b| * |a.dot b|) < 1 / 1000 := by
      rw [hsq, not_lt]
      exact Real.le_sqrt_of_sq_le h
    obtain ⟨sg, hsg⟩ : ∃ sg : ℝ, sg = if a.dot b < 0 then -1 else 1 := ⟨_, rfl⟩
    have hsg2 : sg ^ 2 = 1 := by rw [hsg]; split_ifs <;> norm_num
    have hsgd : sg * a.dot b = |a.dot b| := by
      rw [hsg]
      split_ifs with h0
      · rw [abs_of_neg h0]; ring
      · rw [abs_of_nonneg (not_lt.1 h0)]; ring
    have hm (x : ℝ) := slerp_main a b x hlt hns sg hsg _ _ rfl rfl
    have hcosth : Real.cos (Real.arccos |a.dot b|) = |a.dot b| :=
      Real.cos_arccos (by linarith [abs_nonneg (a.dot b)]) hlt.le
    have hsinth : Real.sin (Real.arccos |a.dot b|) = √(1 - |a.dot b| * |a.dot b|) := by
      rw [Real.sin_arccos, sq]
    have hSpos : 0 < √(1 - |a.dot b| * |a.dot b|) := by
      rw [not_lt] at hns; linarith [show (0 : ℝ) < 1 / 1000 by norm_num]
    have hS2 : √(1 - |a.dot b| * |a.dot b|) ^ 2 + |a.dot b| ^ 2 = 1 := by
      rw [← hsinth, ← hcosth]
      simp only [Real.arccos_cos (Real.arccos_nonneg _) (Real.arccos_le_pi _)]
      exact Real.sin_sq_add_cos_sq _
    generalize √(1 - |a.dot b| * |a.dot b|) = S at *
    generalize Real.arccos |a.dot b| = th at *
    have hd := dot_expand a b
    have hSne := hSpos.ne'
    have hexp (x : ℝ) : Real.sin ((1 - x) * th) = S * Real.cos (x * th) - |a.dot b| * Real.sin (x * th) := by
      rw [sub_mul, one_mul, Real.sin_sub, hsinth, hcosth]
    refine ⟨⟨⟨?_, ?_⟩, ?_⟩, ?_⟩
    · rw [Quat.unit_iff, (hm t).1, (hm t).2, (hm t).2, (hm t).2, hexp]
      have hsc := Real.sin_sq_add_cos_sq (t * th)
      generalize Real.sin (t * th) = s at *
      generalize Real.cos (t * th) = c at *
      rw [← hsgd] at hS2 ⊢
      rw [hd] at hS2 ⊢
      obtain ⟨x, hx⟩ : ∃ x, x = (S * c - sg * (a.q0 * b.q0 + a.q 0 * b.q 0 + a.q 1 * b.q 1
        + a.q 2 * b.q 2) * s) / S := ⟨_, rfl⟩
      obtain ⟨y, hy⟩ : ∃ y, y = s / S := ⟨_, rfl⟩
      have hx' : x = c - sg * (a.q0 * b.q0 + a.q 0 * b.q 0 + a.q 1 * b.q 1 + a.q 2 * b.q 2) * y := by
        rw [hx, hy]; field_simp
      have hy' : y * S = s := by rw [hy]; field_simp
      rw [← hx, ← hy]
      rw [hx']
      generalize hD : a.q0 * b.q0 + a.q 0 * b.q 0 + a.q 1 * b.q 1 + a.q 2 * b.q 2 = D at *
      have key : (c - sg * D * y) ^ 2 + y ^ 2 * sg ^ 2 + 2 * (c - sg * D * y) * y * sg * D = 1 := by
        rw [hsg2]
        have : y ^ 2 * (1 - (sg * D) ^ 2) = s ^ 2 := by
          rw [← hy']; linear_combination (-y ^ 2) * hS2
        linear_combination this + hsc
      linear_combination key + (c - sg * D * y) ^ 2 * hu + (y ^ 2 * sg ^ 2) * hv
        + 2 * (c - sg * D * y) * y * sg * hD
    · have h0 := hm 0
      simp only [sub_zero, one_mul, zero_mul, Real.sin_zero, zero_div, add_zero, hsinth,
        div_self hSne] at h0
      rw [H_ext_iff]
      exact ⟨h0.1, h0.2 0, h0.2 1, h0.2 2⟩
    · have h0 := hm 1
      simp only [sub_self, one_mul, zero_mul, Real.sin_zero, zero_div, zero_add, hsinth,
        div_self hSne] at h0
      have e : (if a.dot b < 0 then -b.toH else b.toH) = sg • b.toH := by
        rw [hsg]; split_ifs <;> simp
      rw [e, H_ext_iff]
      exact ⟨h0.1, h0.2 0, h0.2 1, h0.2 2⟩
    · rw [dot_expand, (hm t).1, (hm t).2, (hm t).2, (hm t).2, hexp]
      rw [← hsgd, hd]
      generalize Real.sin (t * th) = s at *
      generalize Real.cos (t * th) = c at *
      field_simp
      linear_combination (S * c - sg * (a.q0 * b.q0 + a.q 0 * b.q 0 + a.q 1 * b.q 1
        + a.q 2 * b.q 2) * s) * hu

/-- two unit quaternions at angle `arccos 3/5` -/
example : (1 / 1000 : ℝ) ^ 2 ≤ 1 - Quat.dot (Quat.new_from 1 0 0 0 : Quat ℝ)
    (Quat.new_from (3 / 5) 0 (4 / 5) 0) ^ 2 := by
  rw [dot_expand]
  simp only [Quat.new_from_0, Quat.new_from_1, Quat.new_from_2, Quat.new_from_3]
  norm_num

/-! ## C119 slerp runs along a great circle with constant speed, independent of the frame -/

/-- `slerp` away from the branch for nearly parallel arguments. -/
private theorem slerp_far (a b : Quat ℝ) (t : ℝ) (h : (1 / 1000) ^ 2 ≤ 1 - a.dot b ^ 2) :
    0 < Real.sin (Real.arccos |a.dot b|) ∧
    (Quat.slerp a b t).toH =
      (Real.sin ((1 - t) * Real.arccos |a.dot b|) / Real.sin (Real.arccos |a.dot b|)) • a.toH
      + (Real.sin (t * Real.arccos |a.dot b|) / Real.sin (Real.arccos |a.dot b|)) •
        (if a.dot b < 0 then -b.toH else b.toH) := by
  have hlt : |a.dot b| < 1 := by
    rw [← sq_lt_one_iff_abs_lt_one]; norm_num at h; linarith
  have hsq : |a.dot b| * |a.dot b| = a.dot b ^ 2 := by rw [abs_mul_abs_self, sq]
  have hns : 1 / 1000 ≤ √(1 - |a.dot b| * |a.dot b|) := by
    rw [hsq]
    exact Real.le_sqrt_of_sq_le h
  have hsinth : Real.sin (Real.arccos |a.dot b|) = √(1 - |a.dot b| * |a.dot b|) := by
    rw [Real.sin_arccos, sq]
  refine ⟨by rw [hsinth]; linarith [show (0 : ℝ) < 1 / 1000 by norm_num], ?_⟩
  have hm := slerp_main a b t hlt (not_lt.2 hns) _ rfl _ _ rfl rfl
  have e : (if a.dot b < 0 then -b.toH else b.toH) = (if a.dot b < 0 then -1 else 1 : ℝ) • b.toH := by
    split_ifs <;> simp
  rw [hsinth, e, H_ext_iff]
  exact ⟨hm.1, hm.2 0, hm.2 1, hm.2 2⟩

omit P in
private theorem dot_mul_left (a b c : Quat ℝ) (hc : normSq c.toH = 1) :
    (c.mul a).dot (c.mul b) = a.dot b ∧ (a.mul c).dot (b.mul c) = a.dot b := by
  rw [Quat.unit_iff] at hc
  rw [dot_expand, dot_expand, dot_expand]
  simp only [Quat.mul_q0, Quat.mul_qi, Quat.mul_qj, Quat.mul_qk]
  constructor <;> linear_combination (a.q0 * b.q0 + a.q 0 * b.q 0 + a.q 1 * b.q 1 + a.q 2 * b.q 2) * hc

omit P in
private theorem dot_comm' (a b : Quat ℝ) : a.dot b = b.dot a := by
  rw [dot_expand, dot_expand]; ring

omit P in
private theorem eq_of_dot (a b : Quat ℝ) (ha : normSq a.toH = 1) (hb : normSq b.toH = 1)
    (h : |a.dot b| = 1) : b.toH = if a.dot b < 0 then -a.toH else a.toH := by
  have hu := (Quat.unit_iff a).1 ha
  have hv := (Quat.unit_iff b).1 hb
  have hd := dot_expand a b
  split_ifs with hneg
  · have h1 : a.dot b = -1 := by rw [abs_of_neg hneg] at h; linarith
    rw [h1] at hd
    have hz : (b.q0 + a.q0) ^ 2 + (b.q 0 + a.q 0) ^ 2 + (b.q 1 + a.q 1) ^ 2 + (b.q 2 + a.q 2) ^ 2 = 0 := by
      linear_combination hu + hv - 2 * hd
    obtain ⟨z0, z1, z2, z3⟩ := four_sq hz
    rw [H_ext_iff]
    exact ⟨eq_neg_of_add_eq_zero_left z0, eq_neg_of_add_eq_zero_left z1,
      eq_neg_of_add_eq_zero_left z2, eq_neg_of_add_eq_zero_left z3⟩
  · have h1 : a.dot b = 1 := by rw [abs_of_nonneg (not_lt.1 hneg)] at h; linarith
    rw [h1] at hd
    have hz : (b.q0 - a.q0) ^ 2 + (b.q 0 - a.q 0) ^ 2 + (b.q 1 - a.q 1) ^ 2 + (b.q 2 - a.q 2) ^ 2 = 0 := by
      linear_combination hu + hv + 2 * hd
    obtain ⟨z0, z1, z2, z3⟩ := four_sq hz
    rw [H_ext_iff]
    exact ⟨sub_eq_zero.1 z0, sub_eq_zero.1 z1, sub_eq_zero.1 z2, sub_eq_zero.1 z3⟩

/-- For unit quaternions as in `C58_slerp_partial`: the angle between two points of the path is
proportional to the difference of the parameters; turning both end points by the same unit quaternion
from the left or from the right turns the whole path; the path from `b` to `a` is the path from `a`
to `b` run backwards (up to the sign when the shorter arc goes to `-b`); and interpolating towards an
intermediate point scales the parameter. -/
theorem C119_slerp (a b c : Quat ℝ) (s t : ℝ) (ha : normSq a.toH = 1) (hb : normSq b.toH = 1)
    (hc : normSq c.toH = 1) (h : |a.dot b| = 1 ∨ (1 / 1000) ^ 2 ≤ 1 - a.dot b ^ 2) :
    (Quat.slerp a b s).dot (Quat.slerp a b t) = Real.cos ((t - s) * Real.arccos |a.dot b|) ∧
    (Quat.slerp (c.mul a) (c.mul b) t).toH = c.toH * (Quat.slerp a b t).toH ∧
    (Quat.slerp (a.mul c) (b.mul c) t).toH = (Quat.slerp a b t).toH * c.toH ∧
    (Quat.slerp b a (1 - t)).toH =
      (if a.dot b < 0 then -(Quat.slerp a b t).toH else (Quat.slerp a b t).toH) ∧
    (0 ≤ s → s ≤ 1 → (1 / 1000) ^ 2 ≤ Real.sin (s * Real.arccos |a.dot b|) ^ 2 →
      (Quat.slerp a (Quat.slerp a b s) t).toH = (Quat.slerp a b (t * s)).toH) := by
  obtain ⟨dl, dr⟩ := dot_mul_left a b c hc
  rcases h with h | h
  · have hp (x : ℝ) : Quat.slerp a b x = a := slerp_parallel a b x h.ge
    have hq (x : ℝ) : Quat.slerp b a x = b := slerp_parallel b a x (by rw [dot_comm']; exact h.ge)
    rw [hp, hp, hq, slerp_parallel (c.mul a) _ t (by rw [dl]; exact h.ge),
      slerp_parallel (a.mul c) _ t (by rw [dr]; exact h.ge), h, Real.arccos_one, mul_zero,
      Real.cos_zero, Quat.dot_self, Quat.abs2_eq, Quat.toH_mul, Quat.toH_mul]
    refine ⟨ha, rfl, rfl, eq_of_dot a b ha hb h, fun _ _ h0 => ?_⟩
    rw [mul_zero, Real.sin_zero] at h0
    norm_num at h0
  · have hfar (x : ℝ) := slerp_far a b x h
    have hpos := (hfar 0).1
    have hd1 : |a.dot b| < 1 := by
      rw [← sq_lt_one_iff_abs_lt_one]; norm_num at h; linarith
    have hth0 := Real.arccos_nonneg |a.dot b|
    have hth1 : Real.arccos |a.dot b| ≤ Real.pi / 2 := Real.arccos_le_pi_div_two.2 (abs_nonneg _)
    have hcos : Real.cos (Real.arccos |a.dot b|) = |a.dot b| :=
      Real.cos_arccos (by linarith [abs_nonneg (a.dot b)]) hd1.le
    have htri (x : ℝ) : Real.sin ((1 - x) * Real.arccos |a.dot b|) =
        Real.sin (Real.arccos |a.dot b|) * Real.cos (x * Real.arccos |a.dot b|)
        - |a.dot b| * Real.sin (x * Real.arccos |a.dot b|) := by
      rw [sub_mul, one_mul, Real.sin_sub, hcos]
    refine ⟨?_, ?_, ?_, ?_, fun h0 h1 hs => ?_⟩
    · have comp (x : ℝ) := (H_ext_iff.1 (hfar x).2)
      obtain ⟨sg, hsg⟩ : ∃ sg : ℝ, sg = if a.dot b < 0 then -1 else 1 := ⟨_, rfl⟩
      have hsg2 : sg ^ 2 = 1 := by rw [hsg]; split_ifs <;> norm_num
      have hsgd : sg * a.dot b = |a.dot b| := by
        rw [hsg]
        split_ifs with h0
        · rw [abs_of_neg h0]; ring
        · rw [abs_of_nonneg (not_lt.1 h0)]; ring
      have e : (if a.dot b < 0 then -b.toH else b.toH) = sg • b.toH := by
        rw [hsg]; split_ifs <;> simp
      rw [e] at comp
      have hsc := Real.sin_sq_add_cos_sq (Real.arccos |a.dot b|)
      rw [hcos] at hsc
      rw [sub_mul, Real.cos_sub, dot_expand]
      have hu := (Quat.unit_iff a).1 ha
      have hv := (Quat.unit_iff b).1 hb
      have hd := dot_expand a b
      have ex (x : ℝ) : ∃ A B, A = Real.cos (x * Real.arccos |a.dot b|) - sg * a.dot b * B ∧
          B * Real.sin (Real.arccos |a.dot b|) = Real.sin (x * Real.arccos |a.dot b|) ∧
          (Quat.slerp a b x).q0 = A * a.q0 + B * (sg * b.q0) ∧
          (Quat.slerp a b x).q 0 = A * a.q 0 + B * (sg * b.q 0) ∧
          (Quat.slerp a b x).q 1 = A * a.q 1 + B * (sg * b.q 1) ∧
          (Quat.slerp a b x).q 2 = A * a.q 2 + B * (sg * b.q 2) := by
        refine ⟨_, _, ?_, ?_, (comp x).1, (comp x).2.1, (comp x).2.2.1, (comp x).2.2.2⟩
        · rw [htri, hsgd]; field_simp
        · field_simp
      obtain ⟨A, B, hA, hB, a0, a1, a2, a3⟩ := ex s
      obtain ⟨A', B', hA', hB', b0, b1, b2, b3⟩ := ex t
      rw [a0, a1, a2, a3, b0, b1, b2, b3, ← hB, ← hB', hA, hA']
      replace hsc : Real.sin (Real.arccos |a.dot b|) ^ 2 + (sg * a.dot b) ^ 2 = 1 := by
        rw [hsgd]; exact hsc
      generalize Real.sin (Real.arccos |a.dot b|) = S at *
      generalize Real.cos (s * Real.arccos |a.dot b|) = c1 at *
      generalize Real.cos (t * Real.arccos |a.dot b|) = c2 at *
      generalize a.dot b = D at *
      linear_combination (c1 - sg * D * B) * (c2 - sg * D * B') * hu + sg ^ 2 * B * B' * hv
        - sg * ((c1 - sg * D * B) * B' + (c2 - sg * D * B') * B) * hd + B * B' * hsg2 - B * B' * hsc
    · rw [(slerp_far _ _ t (by rw [dl]; exact h)).2, (hfar t).2, dl, Quat.toH_mul, Quat.toH_mul,
        mul_add, mul_smul_comm, mul_smul_comm]
      split_ifs
      · rw [mul_neg]
      · rfl
    · rw [(slerp_far _ _ t (by rw [dr]; exact h)).2, (hfar t).2, dr, Quat.toH_mul, Quat.toH_mul,
        add_mul, smul_mul_assoc, smul_mul_assoc]
      split_ifs
      · rw [neg_mul]
      · rfl
    · rw [(slerp_far b a (1 - t) (by rw [dot_comm']; exact h)).2, (hfar t).2, dot_comm' b a,
        sub_sub_cancel]
      split_ifs
      · rw [smul_neg, smul_neg, neg_add, neg_neg, add_comm]
      · rw [add_comm]
    · have had := (C58_slerp_partial a b s ha hb (Or.inr h)).2.2.2.1
      have hs0 : 0 ≤ s * Real.arccos |a.dot b| := mul_nonneg h0 hth0
      have hs1 : s * Real.arccos |a.dot b| ≤ Real.pi / 2 :=
        (mul_le_of_le_one_left hth0 h1).trans hth1
      have hc0 : 0 ≤ Real.cos (s * Real.arccos |a.dot b|) :=
        Real.cos_nonneg_of_neg_pi_div_two_le_of_le (by linarith [Real.pi_pos]) hs1
      have hfar2 := slerp_far a (Quat.slerp a b s) t (by
        rw [had]; linarith [Real.sin_sq_add_cos_sq (s * Real.arccos |a.dot b|)])
      rw [had, abs_of_nonneg hc0, Real.arccos_cos hs0 (by linarith [Real.pi_pos]),
        if_neg (not_lt.2 hc0), (hfar s).2] at hfar2
      obtain ⟨hp2, hf2⟩ := hfar2
      rw [hf2, (hfar (t * s)).2]
      generalize (if a.dot b < 0 then -b.toH else b.toH) = B
      generalize Real.arccos |a.dot b| = θ at *
      rw [smul_add, smul_smul, smul_smul, ← add_assoc, ← add_smul]
      have e1 : Real.sin ((1 - t) * (s * θ)) / Real.sin (s * θ)
          + Real.sin (t * (s * θ)) / Real.sin (s * θ) * (Real.sin ((1 - s) * θ) / Real.sin θ)
          = Real.sin ((1 - t * s) * θ) / Real.sin θ := by
        have f1 : (1 - t) * (s * θ) = s * θ - t * (s * θ) := by ring
        have f2 : (1 - s) * θ = θ - s * θ := by ring
        have f3 : (1 - t * s) * θ = θ - t * (s * θ) := by ring
        rw [f1, f2, f3, Real.sin_sub, Real.sin_sub, Real.sin_sub]
        generalize Real.sin (t * (s * θ)) = x at *
        generalize Real.sin (s * θ) = y at *
        field_simp
        ring
      have e2 : Real.sin (t * (s * θ)) / Real.sin (s * θ) * (Real.sin (s * θ) / Real.sin θ)
          = Real.sin (t * s * θ) / Real.sin θ := by
        rw [mul_assoc t s θ]
        field_simp
      rw [e1, e2]

/-- Unit quaternions meeting the hypotheses, and a parameter for the last claim. -/
example : normSq (Quat.new_from 1 0 0 0 : Quat ℝ).toH = 1 ∧
    normSq (Quat.new_from 0 0 1 0 : Quat ℝ).toH = 1 ∧
    (1 / 1000 : ℝ) ^ 2 ≤ 1 - Quat.dot (Quat.new_from 1 0 0 0 : Quat ℝ) (Quat.new_from 0 0 1 0) ^ 2 ∧
    (1 / 1000 : ℝ) ^ 2 ≤ Real.sin (1 / 3 * Real.arccos
      |Quat.dot (Quat.new_from 1 0 0 0 : Quat ℝ) (Quat.new_from 0 0 1 0)|) ^ 2 := by
  have hd : Quat.dot (Quat.new_from 1 0 0 0 : Quat ℝ) (Quat.new_from 0 0 1 0) = 0 := by
    rw [dot_expand]
    simp only [Quat.new_from_0, Quat.new_from_1, Quat.new_from_2, Quat.new_from_3]
    norm_num
  rw [Quat.unit_iff, Quat.unit_iff, hd, abs_zero, Real.arccos_zero,
    show (1 / 3 : ℝ) * (Real.pi / 2) = Real.pi / 6 by ring, Real.sin_pi_div_six]
  simp only [Quat.new_from_0, Quat.new_from_1, Quat.new_from_2, Quat.new_from_3]
  norm_num

/-! ## C95 Sine and cosine -/

/-- the direction used by `sin` and `cos`: a unit imaginary quaternion -/
private theorem argq_facts (q : Quat ℝ) :
    normSq q.argq.toH = 1 ∧ q.argq.q0 = 0 ∧ q.argq.toH * q.argq.toH = -1 ∧
    (V3.norm2 q.imag = 0 ∨ P.eps < V3.norm2 q.imag ^ 2 →
      q.toH = (q.q0 : ℍ[ℝ]) + V3.norm2 q.imag • q.argq.toH) := by
  have he := P.eps_pos
  have hu : normSq q.argq.toH = 1 := (C44_flag_partial q 0 0 0 0 V3.zero).2.2.2.2.2.2.2.2
  have hdot : (Quat.new 0 q.q : Quat ℝ).dot (Quat.new 0 q.q) = V3.norm2 q.imag ^ 2 := by
    rw [V3.norm2_sq, dot_expand]
    change (0 : ℝ) * 0 + q.q 0 * q.q 0 + q.q 1 * q.q 1 + q.q 2 * q.q 2
      = q.q 0 ^ 2 + q.q 1 ^ 2 + q.q 2 ^ 2
    ring
  have hq : q.argq = if P.eps < V3.norm2 q.imag ^ 2
      then ⟨0 / V3.norm2 q.imag, V3.sdiv q.q (V3.norm2 q.imag), true⟩ else ⟨0, V3.x_axis, true⟩ := by
    unfold Quat.argq Quat.normalize_q
    simp only [hdot, rord_lt, rfloat_epsilon, decide_eq_true_eq, rfloat_sqrt,
      Real.sqrt_sq (V3.norm2_nonneg _)]
    rfl
  have h0 : q.argq.q0 = 0 := by
    rw [hq]; split_ifs <;> simp
  refine ⟨hu, h0, ?_, ?_⟩
  · have := Quaternion.self_mul_star q.argq.toH
    rw [hu] at this
    have hst : star q.argq.toH = -q.argq.toH := by
      rw [H_ext_iff]
      simp [h0]
    rw [hst, mul_neg] at this
    have h1 : ((1 : ℝ) : ℍ[ℝ]) = 1 := rfl
    rw [h1] at this
    rw [← this, neg_neg]
  · rintro (h | h)
    · have hz : q.q = V3.zero := (V3.norm2_zero _).1 h
      rw [h, zero_smul, add_zero, H_ext_iff]
      simp [hz, V3.zero_apply]
    · have hne : V3.norm2 q.imag ≠ 0 := fun h0 => by rw [h0] at h; norm_num at h; linarith
      have hi (i : Fin 3) : q.argq.q i = q.q i / V3.norm2 q.imag := by
        rw [hq, if_pos h]; exact V3.sdiv_apply _ _ _
      rw [H_ext_iff]
      refine ⟨?_, ?_, ?_, ?_⟩
      · simp [h0]
      · simp [hi]; field_simp
      · simp [hi]; field_simp
      · simp [hi]; field_simp

/-- `exp (a L - b)` for a unit imaginary `L` -/
private theorem exp_arm (x L : Quat ℝ) (a b : ℝ) (hL0 : L.q0 = 0) (hL : normSq L.toH = 1)
    (hx : x.toH = (b : ℍ[ℝ]) + a • L.toH) (ha : a = 0 ∨ P.eps < |a|) :
    x.exp.toH = Real.exp b • ((Real.cos a : ℍ[ℝ]) + Real.sin a • L.toH) := by
  have h0 : x.q0 = b := by
    have := congrArg (fun x : ℍ[ℝ] => x.re) hx
    simpa [hL0] using this
  have hi0 : x.q 0 = a * L.q 0 := by
    have := congrArg (fun x : ℍ[ℝ] => x.imI) hx
    simpa using this
  have hi1 : x.q 1 = a * L.q 1 := by
    have := congrArg (fun x : ℍ[ℝ] => x.imJ) hx
    simpa using this
  have hi2 : x.q 2 = a * L.q 2 := by
    have := congrArg (fun x : ℍ[ℝ] => x.imK) hx
    simpa using this
  have hn : V3.norm2 x.imag = |a| := by
    have h1 : V3.norm2 x.imag ^ 2 = |a| ^ 2 := by
      rw [V3.norm2_sq, Quat.imag, hi0, hi1, hi2, sq_abs]
      have := (Quat.unit_iff L).1 hL
      rw [hL0] at this
      linear_combination a ^ 2 * this
    exact (pow_left_inj₀ (V3.norm2_nonneg _) (abs_nonneg _) two_ne_zero).1 h1
  have him : x.toH.im = a • L.toH := by
    rw [H_ext_iff]
    simp [hL0, hi0, hi1, hi2]
  rw [(C55_exp x).1 (by rw [hn]; exact ha.imp (fun h => by rw [h, abs_zero]) id), series_toH, h0, hn,
    him, Real.cos_abs, smul_smul]
  congr 3
  rcases abs_cases a with ⟨h, -⟩ | ⟨h, -⟩
  · rw [h]
    rcases eq_or_ne a 0 with rfl | hne
    · simp
    · field_simp
  · rw [h, Real.sin_neg]
    rcases eq_or_ne a 0 with rfl | hne
    · simp
    · field_simp

theorem C95_no_panic (q : Quat ℝ) : ∃ s, q.sin = .ok s := by
  have he1 := P.eps_le
  change ∃ s, Quat.div _ (q.argq.smul (1 + 1)) = .ok s
  cases hd : Quat.div ((q.mul q.argq).exp.sub (q.mul q.argq.neg).exp) (q.argq.smul (1 + 1)) with
  | ok s => exact ⟨s, rfl⟩
  | error e =>
    exfalso
    have hinv : (q.argq.smul (1 + 1)).inverse = none := by
      unfold Quat.div at hd
      cases hi : (q.argq.smul (1 + 1)).inverse with
      | none => rfl
      | some p => rw [hi] at hd; simp [unwrapSome, bind, Except.bind, pure, Except.pure] at hd
    have := ((C45_inverse _).1.1 hinv).2
    rw [Quat.toH_smul, Quaternion.normSq_smul, (argq_facts q).1] at this
    norm_num at this he1
    linarith

theorem C95_sin_cos (q : Quat ℝ) (hr : q.q0 = 0 ∨ P.eps < |q.q0|)
    (hi : V3.norm2 q.imag = 0 ∨ P.eps < V3.norm2 q.imag ^ 2) :
    ∃ s, q.sin = .ok s ∧
      s.toH = ((Real.sin q.q0 * Real.cosh (V3.norm2 q.imag) : ℝ) : ℍ[ℝ])
        + (Real.cos q.q0 * (Real.sinh (V3.norm2 q.imag) / V3.norm2 q.imag)) • q.toH.im ∧
      q.cos.toH = ((Real.cos q.q0 * Real.cosh (V3.norm2 q.imag) : ℝ) : ℍ[ℝ])
        - (Real.sin q.q0 * (Real.sinh (V3.norm2 q.imag) / V3.norm2 q.imag)) • q.toH.im ∧
      s.toH * s.toH + q.cos.toH * q.cos.toH = 1 := by
  obtain ⟨hL, hL0, hLL, hqe⟩ := argq_facts q
  have hqe := hqe hi
  obtain ⟨s, hs⟩ := C95_no_panic q
  have him : q.toH.im = V3.norm2 q.imag • q.argq.toH := by
    have : q.toH.im = _ := congrArg (fun x : ℍ[ℝ] => x.im) hqe
    rw [this, H_ext_iff]
    simp [hL0]
  have hcancel (f : ℝ) : (f * (Real.sinh (V3.norm2 q.imag) / V3.norm2 q.imag)) • q.toH.im
      = (f * Real.sinh (V3.norm2 q.imag)) • q.argq.toH := by
    rw [him, smul_smul]
    congr 1
    rcases eq_or_ne (V3.norm2 q.imag) 0 with h0 | h0
    · rw [h0]; simp
    · field_simp
  rw [hcancel, hcancel]
  have e1 : (q.mul q.argq).exp.toH = Real.exp (-V3.norm2 q.imag) •
      ((Real.cos q.q0 : ℍ[ℝ]) + Real.sin q.q0 • q.argq.toH) := by
    refine exp_arm _ _ _ _ hL0 hL ?_ hr
    rw [Quat.toH_mul, hqe, add_mul, smul_mul_assoc, hLL, Quaternion.coe_mul_eq_smul, smul_neg]
    have : (((-V3.norm2 q.imag : ℝ)) : ℍ[ℝ]) = -(V3.norm2 q.imag • (1 : ℍ[ℝ])) := by
      rw [H_ext_iff]; simp
    rw [this, add_comm]
  have e2 : (q.mul q.argq.neg).exp.toH = Real.exp (V3.norm2 q.imag) •
      ((Real.cos q.q0 : ℍ[ℝ]) - Real.sin q.q0 • q.argq.toH) := by
    have hh : -q.q0 = 0 ∨ P.eps < |-q.q0| := by rwa [neg_eq_zero, abs_neg]
    rw [exp_arm (q.mul q.argq.neg) q.argq (-q.q0) (V3.norm2 q.imag) hL0 hL ?_ hh]
    · rw [Real.cos_neg, Real.sin_neg, neg_smul, sub_eq_add_neg]
    · have hneg : q.argq.neg.toH = -q.argq.toH := rfl
      rw [Quat.toH_mul, hneg, hqe, add_mul, smul_mul_assoc, mul_neg, mul_neg, hLL, neg_neg,
        Quaternion.coe_mul_eq_smul, neg_smul]
      have : ((V3.norm2 q.imag : ℝ) : ℍ[ℝ]) = (V3.norm2 q.imag • (1 : ℍ[ℝ])) := by
        rw [H_ext_iff]; simp
      rw [this, add_comm]
  have hcos : q.cos.toH = ((Real.cos q.q0 * Real.cosh (V3.norm2 q.imag) : ℝ) : ℍ[ℝ])
        - (Real.sin q.q0 * Real.sinh (V3.norm2 q.imag)) • q.argq.toH := by
    have : q.cos.toH = (1 + 1 : ℝ)⁻¹ • ((q.mul q.argq).exp.toH + (q.mul q.argq.neg).exp.toH) :=
      Quat.toH_sdiv _ _
    rw [this, e1, e2, H_ext_iff, Real.cosh_eq, Real.sinh_eq]
    refine ⟨?_, ?_, ?_, ?_⟩
    · hsimp; rw [hL0]; ring
    · hsimp; ring
    · hsimp; ring
    · hsimp; ring
  have hsin : s.toH = ((Real.sin q.q0 * Real.cosh (V3.norm2 q.imag) : ℝ) : ℍ[ℝ])
        + (Real.cos q.q0 * Real.sinh (V3.norm2 q.imag)) • q.argq.toH := by
    have h2 : s.toH * (q.argq.smul (1 + 1)).toH
        = ((q.mul q.argq).exp.sub (q.mul q.argq.neg).exp).toH :=
      (C45_div _ _).2 (fun h => by simp [Quat.smul] at h) s hs
    rw [Quat.toH_smul, Quat.toH_sub, e1, e2] at h2
    have h3 := congrArg (fun x => x * (-(1 / 2 : ℝ) • q.argq.toH)) h2
    simp only [mul_assoc] at h3
    rw [smul_mul_smul_comm, hLL] at h3
    have h4 : s.toH = s.toH * (((1 + 1 : ℝ) * -(1 / 2)) • (-1)) := by norm_num
    rw [h4, h3, sub_mul, smul_mul_assoc, smul_mul_assoc, add_mul, sub_mul, smul_mul_smul_comm, hLL,
      H_ext_iff, Real.cosh_eq, Real.sinh_eq]
    refine ⟨?_, ?_, ?_, ?_⟩
    · hsimp; rw [hL0]; ring
    · hsimp; ring
    · hsimp; ring
    · hsimp; ring
  refine ⟨s, hs, hsin, hcos, ?_⟩
  have hsc := Real.sin_sq_add_cos_sq q.q0
  have hch := Real.cosh_sq (V3.norm2 q.imag)
  rw [hsin, hcos]
  generalize Real.sin q.q0 = sn at *
  generalize Real.cos q.q0 = cs at *
  generalize Real.cosh (V3.norm2 q.imag) = ch at *
  generalize Real.sinh (V3.norm2 q.imag) = sh at *
  have hsq (x y : ℝ) : ((x : ℍ[ℝ]) + y • q.argq.toH) * ((x : ℍ[ℝ]) + y • q.argq.toH)
      = ((x ^ 2 - y ^ 2 : ℝ) : ℍ[ℝ]) + (2 * x * y) • q.argq.toH := by
    rw [add_mul, mul_add, mul_add, smul_mul_smul_comm, hLL, H_ext_iff]
    refine ⟨?_, ?_, ?_, ?_⟩
    · hsimp; rw [hL0]; ring
    · hsimp; ring
    · hsimp; ring
    · hsimp; ring
  rw [sub_eq_add_neg, ← neg_smul, hsq, hsq, H_ext_iff]
  refine ⟨?_, ?_, ?_, ?_⟩
  · hsimp; rw [hL0]
    linear_combination (sn ^ 2 + cs ^ 2) * hch + hsc
  · hsimp; ring
  · hsimp; ring
  · hsimp; ring

example : P.eps < |(Quat.new_from 1 0 2 0 : Quat ℝ).q0| ∧
    P.eps < V3.norm2 (Quat.new_from 1 0 2 0 : Quat ℝ).imag ^ 2 := by
  have := P.eps_le
  norm_num at this
  constructor
  · change P.eps < |(1 : ℝ)|; rw [abs_one]; linarith
  · rw [V3.norm2_sq]; change P.eps < (0 : ℝ) ^ 2 + 2 ^ 2 + 0 ^ 2; norm_num; linarith

end
end StaticMath

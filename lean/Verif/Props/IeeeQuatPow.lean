import Verif.Props.IeeeQuatLn

/-!
# C151: real powers and the derivative of quaternions in floating point
-/

namespace StaticMath
open Flt Quaternion

variable {f : Fmt}

theorem new_real_reH (t : Flt f) : (Quat.new_real t).reH = (t.toReal : ℍ[ℝ]) := by
  have z : ((0 : Flt f)).toReal = 0 := toReal_zero
  ext
  · rfl
  · exact z
  · exact z
  · exact z

/-- The exponentials of two quaternions that are close to each other. -/
theorem exp_near {P M : ℍ[ℝ]} {d : ℝ} (hd : d ≤ 1) (h : ‖P - M‖ ≤ d) :
    ‖NormedSpace.exp P - NormedSpace.exp M‖ ≤ ‖NormedSpace.exp M‖ * (3 * d) ∧ Real.exp P.re ≤ ‖NormedSpace.exp M‖ * (1 + 2 * d) := by
  obtain ⟨r1, r2⟩ := re_im_le (P - M)
  have e1 : (P - M).im = P.im - M.im := by ext <;> simp
  rw [e1] at r2
  rw [re_sub] at r1
  have hM : ‖NormedSpace.exp M‖ = Real.exp M.re := by
    rw [exp_split, norm_smul, norm_exp_pure (re_im _), mul_one, Real.norm_eq_abs, abs_of_pos (Real.exp_pos _)]
  have k1 : |Real.exp P.re - Real.exp M.re| ≤ Real.exp M.re * (2 * d) := by
    have h1 := Real.abs_exp_sub_one_le (x := P.re - M.re) (by linarith)
    have h2 : Real.exp P.re - Real.exp M.re = Real.exp M.re * (Real.exp (P.re - M.re) - 1) := by
      rw [Real.exp_sub, mul_sub, mul_one, mul_div_cancel₀ _ (Real.exp_pos _).ne']
    rw [h2, abs_mul, abs_of_pos (Real.exp_pos _)]
    exact mul_le_mul_of_nonneg_left (by linarith) (Real.exp_pos _).le
  have k2 := exp_lip (re_im P) (re_im M)
  rw [hM]
  constructor
  · rw [exp_split P, exp_split M]
    have e : Real.exp P.re • NormedSpace.exp P.im - Real.exp M.re • NormedSpace.exp M.im =
        (Real.exp P.re - Real.exp M.re) • NormedSpace.exp P.im + Real.exp M.re • (NormedSpace.exp P.im - NormedSpace.exp M.im) := by
      rw [sub_smul, smul_sub]; abel
    rw [e]
    refine (norm_add_le _ _).trans ?_
    rw [norm_smul, norm_smul, norm_exp_pure (re_im P), mul_one, Real.norm_eq_abs, Real.norm_eq_abs, abs_of_pos (Real.exp_pos _)]
    have := mul_le_mul_of_nonneg_left (k2.trans (r2.trans h)) (Real.exp_pos M.re).le
    linarith
  · have := (_root_.abs_le.1 k1).2
    linarith

private theorem pow_core [L : Libm f] (hw : f.Wide) {ε : ℝ} (hsc : SinCosAcc f ε) (he : ExpAcc f ε) (hε : ε ≤ 1 / 64) (l : Quat (Flt f))
    (hl : ∀ i, (l.comp i).IsFin) (hr : |l.reH.re| ≤ 17 / 10) (hi : ‖l.reH.im‖ ≤ 36 / 10) (t : Flt f) (ht : t.IsFin) (ht2 : |t.toReal| ≤ 2) :
    (∀ i, (((Quat.new_real t).mul l).exp.comp i).IsFin) ∧
    ‖((Quat.new_real t).mul l).exp.reH - NormedSpace.exp (t.toReal • l.reH)‖ ≤
      ‖NormedSpace.exp (t.toReal • l.reH)‖ * (10 * ε + 460 * f.u) := by
  have hp := hw.p
  have hu0 := f.u_pos
  have hu := Fmt.u_le_of_p hp
  have hη := Fmt.eta_small hp
  have hη0 := f.eta_pos
  have ε0 : 0 ≤ ε := (abs_nonneg _).trans (hsc.cos 1 trivial).2
  obtain ⟨kk, -, -⟩ := Fmt.kappa456 hp
  have hL : ‖l.reH‖ ≤ 4 := by
    refine abs_le_of_sq_le_sq' ?_ (by norm_num) |>.2
    rw [norm_sq_re_im, ← sq_abs l.reH.re]
    have a := pow_le_pow_left₀ (abs_nonneg _) hr 2
    have b := pow_le_pow_left₀ (norm_nonneg _) hi 2
    linarith
  have fin : ∀ i, (((Quat.new_real t).mul l).comp i).IsFin := by
    refine (C105_no_overflow (Quat.new_real t) l ⟨fun _ => 0⟩ 4 (by norm_num) (fun i => ?_) (fun i => ⟨hl i, (l.comp_le_reH i).trans hL⟩)
      (fun i => ⟨isFin_zero, by rw [toReal_zero]; norm_num⟩)).1 ?_
    · fin_cases i
      · exact ⟨ht, by change |t.toReal| ≤ 4; linarith⟩
      all_goals exact ⟨isFin_zero, by change |(0 : Flt f).toReal| ≤ 4; rw [toReal_zero]; norm_num⟩
    · have h1 := Fmt.range_of_p hp (x := 256) (by norm_num)
      have h2 : (1 + f.u) ^ 4 * (8 * 4 ^ 2) ≤ (1 + f.u) * 256 := by nlinarith
      linarith
  have h1 := (C105_product (Quat.new_real t) l fin).2.1
  rw [new_real_reH, Quaternion.coe_mul_eq_smul] at h1
  have h2 : ‖((Quat.new_real t).mul l).reH - t.toReal • l.reH‖ ≤ 66 * f.u := by
    refine h1.trans ?_
    rw [Quaternion.norm_coe, Real.norm_eq_abs]
    have a1 : |t.toReal| * ‖l.reH‖ ≤ 2 * 4 := mul_le_mul ht2 hL (norm_nonneg _) (by norm_num)
    have a2 : ((1 + f.u) ^ 4 - 1) * (|t.toReal| * ‖l.reH‖) ≤ 404 / 100 * f.u * (2 * 4) :=
      mul_le_mul kk a1 (by positivity) (by positivity)
    have a3 : (1 + f.u) ^ 4 * (f.eta * 4) ≤ 2 * (f.u / 256 * 4) := by
      refine mul_le_mul (by linarith) (by linarith) (by positivity) (by norm_num)
    linarith
  generalize hP : (Quat.new_real t).mul l = P at *
  have hd : 66 * f.u ≤ 1 := by linarith
  obtain ⟨x1, x2⟩ := exp_near hd h2
  obtain ⟨r1, r2⟩ := re_im_le (P.reH - t.toReal • l.reH)
  have r3 : |P.reH.re| ≤ 4 := by
    rw [re_sub, re_smul, smul_eq_mul] at r1
    have a := abs_sub_abs_le_abs_sub P.reH.re (t.toReal * l.reH.re)
    rw [abs_mul] at a
    have b := mul_le_mul ht2 hr (abs_nonneg _) (by norm_num)
    linarith
  have r4 : ‖P.reH.im‖ ≤ 8 := by
    have e : (P.reH - t.toReal • l.reH).im = P.reH.im - t.toReal • l.reH.im := by ext <;> simp
    rw [e] at r2
    have a := norm_sub_norm_le P.reH.im (t.toReal • l.reH.im)
    rw [norm_smul, Real.norm_eq_abs] at a
    have b := mul_le_mul ht2 hi (norm_nonneg _) (by norm_num)
    linarith
  obtain ⟨y1, y2⟩ := C138_exp hw hsc he (by linarith) P fin r3 r4
  refine ⟨y1, ?_⟩
  have y3 : ‖P.exp.reH - NormedSpace.exp P.reH‖ ≤ Real.exp P.reH.re * (6 * ε + 156 * f.u) := by
    refine y2.trans (mul_le_mul_of_nonneg_left ?_ (Real.exp_pos _).le)
    have := mul_le_mul_of_nonneg_right (show 16 * ‖P.reH.im‖ + 28 ≤ 156 by linarith) hu0.le
    linarith
  have n0 := norm_nonneg (NormedSpace.exp (t.toReal • l.reH))
  have z := norm_sub_le_norm_sub_add_norm_sub P.exp.reH (NormedSpace.exp P.reH) (NormedSpace.exp (t.toReal • l.reH))
  generalize ‖NormedSpace.exp (t.toReal • l.reH)‖ = N at *
  have x3 : Real.exp P.reH.re ≤ N * (16 / 10) :=
    x2.trans (mul_le_mul_of_nonneg_left (by linarith) n0)
  have x4 := mul_le_mul_of_nonneg_right x3 (show 0 ≤ 6 * ε + 156 * f.u by positivity)
  have x5 : 0 ≤ N * ε := by positivity
  have x6 : 0 ≤ N * f.u := by positivity
  nlinarith

/-- Unflagged of norm between 1/3 and 3, or flagged as normalised and of norm one up to `δ`. -/
def Quat.PowRange (q : Quat (Flt f)) (δ : ℝ) : Prop :=
  (q.normalized = false ∧ 1 / 3 ≤ ‖q.reH‖ ∧ ‖q.reH‖ ≤ 3) ∨ (q.normalized = true ∧ |‖q.reH‖ - 1| ≤ δ)

private theorem norm_exp' (z : ℍ[ℝ]) : ‖NormedSpace.exp z‖ = Real.exp z.re := by
  rw [exp_split, norm_smul, norm_exp_pure (re_im _), mul_one, Real.norm_eq_abs, abs_of_pos (Real.exp_pos _)]

private theorem re_bound {x a b : ℝ} (ha : 1 / 54 * 10 ≤ a) (h1 : a ≤ Real.exp x) (h2 : Real.exp x ≤ b) (hb : b ≤ 5) : |x| ≤ 17 / 10 := by
  have e1 : (54 / 10 : ℝ) ≤ Real.exp (17 / 10) := by
    have h := Real.exp_one_gt_d9
    have e : Real.exp (17 / 10) = Real.exp 1 * Real.exp (7 / 10) := by rw [← Real.exp_add]; norm_num
    have k := Real.quadratic_le_exp_of_nonneg (x := 7 / 10) (by norm_num)
    have k2 : (1.99 : ℝ) ≤ Real.exp (7 / 10) := by
      have : Real.exp (7 / 10) = Real.exp (7 / 20) * Real.exp (7 / 20) := by rw [← Real.exp_add]; norm_num
      have k := Real.quadratic_le_exp_of_nonneg (x := 7 / 20) (by norm_num)
      rw [this]; nlinarith
    rw [e]; nlinarith
  rw [_root_.abs_le]
  constructor
  · by_contra hc
    have h3 : Real.exp x < Real.exp (-(17 / 10)) := Real.exp_lt_exp.2 (not_le.1 hc)
    rw [Real.exp_neg] at h3
    have h4 : (Real.exp (17 / 10))⁻¹ ≤ (54 / 10 : ℝ)⁻¹ := inv_anti₀ (by norm_num) e1
    norm_num at h4 ha
    linarith
  · by_contra hc
    have h3 := Real.exp_lt_exp.2 (not_le.1 hc)
    linarith

private theorem ln_range [L : Libm f] (hw : f.Wide) {ε δ : ℝ} (hA : Atan2Acc f ε) (hB : Atan2Neg f ε) (hl : LnAcc f ε) (hε : ε ≤ 1 / 64)
    (hδ0 : 0 ≤ δ) (hδ : δ ≤ 1 / 64) (q : Quat (Flt f)) (hq : ∀ i, (q.comp i).IsFin) (hr : q.PowRange δ) :
    (∀ i, (q.ln.comp i).IsFin) ∧ |q.ln.reH.re| ≤ 17 / 10 ∧ ‖q.ln.reH.im‖ ≤ 36 / 10 ∧ 0 < ‖q.reH‖ ∧
    ‖NormedSpace.exp q.ln.reH - q.reH‖ ≤ ‖q.reH‖ * (4 * ε + 95 * f.u + 2 * δ) := by
  have hu0 := f.u_pos
  have hu := Fmt.u_le_of_p hw.p
  have ε0 : 0 ≤ ε := (abs_nonneg _).trans (hA 1 1 trivial trivial (Or.inl (by rw [toReal_one]; norm_num))).2
  have low := norm_sub_norm_le q.reH (NormedSpace.exp q.ln.reH)
  rw [norm_sub_rev, norm_exp'] at low
  rcases hr with ⟨hf, h1, h3⟩ | ⟨hf, h1⟩
  · obtain ⟨c1, -, c3, c4, c5⟩ := C139_ln hw hA hB hl (by linarith) q hq hf (by linarith) (by linarith)
    have c6 : ‖q.reH‖ * (4 * ε + 95 * f.u) ≤ ‖q.reH‖ * (44 / 100) := mul_le_mul_of_nonneg_left (by linarith) (by linarith)
    refine ⟨c1, re_bound (a := 1 / 54 * 10) le_rfl ?_ c4 ?_, c3, by linarith, c5.trans (mul_le_mul_of_nonneg_left (by linarith) (by linarith))⟩
    · linarith
    · linarith
  · obtain ⟨c1, -, c3, c4, c5⟩ := C139_ln_unit hw hA hB hl (by linarith) q hq hf (by linarith) h1
    obtain ⟨n1, n2⟩ := _root_.abs_le.1 h1
    refine ⟨c1, re_bound (a := 1 / 54 * 10) le_rfl ?_ c4 (by norm_num), c3, by linarith, c5.trans ?_⟩
    · linarith
    · have : 63 / 64 * (4 * ε + 95 * f.u + 2 * δ) ≤ ‖q.reH‖ * (4 * ε + 95 * f.u + 2 * δ) :=
        mul_le_mul_of_nonneg_right (by linarith) (by positivity)
      linarith

/-- **C151.** Real powers with exponents between -2 and 2: there is a quaternion `l`, the same for all exponents, whose exponential is the
argument up to `4ε + 95u + 2δ` relative to its norm, such that the computed power is `exp (t l)` up to `10ε + 460u` relative to its norm. -/
theorem C151_pow [L : Libm f] (hw : f.Wide) {ε δ : ℝ} (hsc : SinCosAcc f ε) (he : ExpAcc f ε) (hA : Atan2Acc f ε) (hB : Atan2Neg f ε)
    (hl : LnAcc f ε) (hε : ε ≤ 1 / 64) (hδ0 : 0 ≤ δ) (hδ : δ ≤ 1 / 64) (q : Quat (Flt f)) (hq : ∀ i, (q.comp i).IsFin) (hr : q.PowRange δ) :
    ∃ l : ℍ[ℝ], ‖l.im‖ ≤ 36 / 10 ∧ ‖NormedSpace.exp l - q.reH‖ ≤ ‖q.reH‖ * (4 * ε + 95 * f.u + 2 * δ) ∧
      ∀ t : Flt f, t.IsFin → |t.toReal| ≤ 2 → (∀ i, ((q.pow (Quat.new_real t)).comp i).IsFin) ∧
        ‖(q.pow (Quat.new_real t)).reH - NormedSpace.exp (t.toReal • l)‖ ≤ ‖NormedSpace.exp (t.toReal • l)‖ * (10 * ε + 460 * f.u) := by
  obtain ⟨c1, c2, c3, -, c5⟩ := ln_range hw hA hB hl hε hδ0 hδ q hq hr
  exact ⟨q.ln.reH, c3, c5, fun t ht ht2 => pow_core hw hsc he hε q.ln c1 c2 c3 t ht ht2⟩

/-- **C151.** The power with exponent one is the quaternion itself, with exponent two its square, with exponent minus one its inverse,
with exponent zero one, up to the stated errors. -/
theorem C151_integer_powers [L : Libm f] (hw : f.Wide) {ε δ : ℝ} (hsc : SinCosAcc f ε) (he : ExpAcc f ε) (hA : Atan2Acc f ε) (hB : Atan2Neg f ε)
    (hl : LnAcc f ε) (hε : ε ≤ 1 / 64) (hδ0 : 0 ≤ δ) (hδ : δ ≤ 1 / 64) (q : Quat (Flt f)) (hq : ∀ i, (q.comp i).IsFin) (hr : q.PowRange δ)
    (t : Flt f) (ht : t.IsFin) :
    (t.toReal = 0 → ‖(q.pow (Quat.new_real t)).reH - 1‖ ≤ 10 * ε + 460 * f.u) ∧
    (t.toReal = 1 → ‖(q.pow (Quat.new_real t)).reH - q.reH‖ ≤ ‖q.reH‖ * (19 * ε + 770 * f.u + 2 * δ)) ∧
    (t.toReal = 2 → ‖(q.pow (Quat.new_real t)).reH - q.reH * q.reH‖ ≤ ‖q.reH‖ ^ 2 * (32 * ε + 1230 * f.u + 5 * δ)) ∧
    (t.toReal = -1 → ‖(q.pow (Quat.new_real t)).reH * q.reH - 1‖ ≤ 27 * ε + 1050 * f.u + 4 * δ) := by
  have hu0 := f.u_pos
  have hu := Fmt.u_le_of_p hw.p
  have ε0 : 0 ≤ ε := (abs_nonneg _).trans (hA 1 1 trivial trivial (Or.inl (by rw [toReal_one]; norm_num))).2
  obtain ⟨l, -, h2, h3⟩ := C151_pow hw hsc he hA hB hl hε hδ0 hδ q hq hr
  obtain ⟨-, -, -, M0, -⟩ := ln_range hw hA hB hl hε hδ0 hδ q hq hr
  have h4 := fun b => (h3 t ht b).2
  generalize (q.pow (Quat.new_real t)).reH = R at *
  obtain ⟨X, hX⟩ : ∃ X, X = NormedSpace.exp l := ⟨_, rfl⟩
  generalize q.reH = z at *
  have κ1 : 4 * ε + 95 * f.u + 2 * δ ≤ 465 / 1000 := by linarith
  have hz : ‖z‖ * (4 * ε + 95 * f.u + 2 * δ) ≤ ‖z‖ * (465 / 1000) := mul_le_mul_of_nonneg_left κ1 M0.le
  rw [← hX] at h2
  have nX : ‖X‖ ≤ 1465 / 1000 * ‖z‖ := by
    have := norm_sub_norm_le X z
    linarith
  have nX' : 535 / 1000 * ‖z‖ ≤ ‖X‖ := by
    have := norm_sub_norm_le z X
    rw [norm_sub_rev] at this
    linarith
  let +nondep : NormedAlgebra ℚ ℍ[ℝ] := .restrictScalars ℚ ℝ ℍ[ℝ]
  refine ⟨fun h => ?_, fun h => ?_, fun h => ?_, fun h => ?_⟩
  · have h5 := h4 (by rw [h]; norm_num)
    rw [h, zero_smul, NormedSpace.exp_zero, norm_one, one_mul] at h5
    exact h5
  · have h5 := h4 (by rw [h]; norm_num)
    rw [h, one_smul, ← hX] at h5
    have t1 := norm_sub_le_norm_sub_add_norm_sub R X z
    have t2 := mul_le_mul_of_nonneg_right nX (show 0 ≤ 10 * ε + 460 * f.u by positivity)
    have t3 : 0 ≤ ‖z‖ * ε := by positivity
    have t4 : 0 ≤ ‖z‖ * f.u := by positivity
    linarith
  · have h5 := h4 (by rw [h]; norm_num)
    rw [h, two_smul, NormedSpace.exp_add_of_commute (Commute.refl _), ← hX, norm_mul] at h5
    have t1 := norm_sub_le_norm_sub_add_norm_sub R (X * X) (z * z)
    have e : X * X - z * z = (X - z) * (X - z) + (X - z) * z + z * (X - z) := by noncomm_ring
    have t2 : ‖X * X - z * z‖ ≤ ‖z‖ ^ 2 * (2465 / 1000 * (4 * ε + 95 * f.u + 2 * δ)) := by
      rw [e]
      refine norm_add₃_le.trans ?_
      rw [norm_mul, norm_mul, norm_mul]
      have a1 := mul_le_mul_of_nonneg_right h2 M0.le
      have a2 : ‖X - z‖ * ‖X - z‖ ≤ ‖z‖ * (4 * ε + 95 * f.u + 2 * δ) * (‖z‖ * (465 / 1000)) :=
        mul_le_mul h2 (h2.trans hz) (norm_nonneg _) (by positivity)
      linarith
    have t3 : ‖X‖ * ‖X‖ ≤ 1465 / 1000 * ‖z‖ * (1465 / 1000 * ‖z‖) := mul_le_mul nX nX (norm_nonneg _) (by positivity)
    have t4 := mul_le_mul_of_nonneg_right t3 (show 0 ≤ 10 * ε + 460 * f.u by positivity)
    have t5 : 0 ≤ ‖z‖ ^ 2 * ε := by positivity
    have t6 : 0 ≤ ‖z‖ ^ 2 * f.u := by positivity
    have t7 : 0 ≤ ‖z‖ ^ 2 * δ := by positivity
    linarith
  · have h5 := h4 (by rw [h]; norm_num)
    have hXi : NormedSpace.exp ((-1 : ℝ) • l) * X = 1 := by
      rw [hX, neg_one_smul, ← NormedSpace.exp_add_of_commute (Commute.neg_left (Commute.refl _)), neg_add_cancel, NormedSpace.exp_zero]
    rw [h] at h5
    generalize NormedSpace.exp ((-1 : ℝ) • l) = Y at *
    have nY : ‖Y‖ * ‖X‖ = 1 := by rw [← norm_mul, hXi, norm_one]
    have nYz : ‖Y‖ * ‖z‖ ≤ 187 / 100 := by
      have := mul_le_mul_of_nonneg_left nX' (norm_nonneg Y)
      linarith
    have e : R * z - 1 = (R - Y) * z - Y * (X - z) := by rw [← hXi]; noncomm_ring
    rw [e]
    refine (norm_sub_le _ _).trans ?_
    rw [norm_mul, norm_mul]
    have a1 := mul_le_mul_of_nonneg_right h5 M0.le
    have a2 := mul_le_mul_of_nonneg_left h2 (norm_nonneg Y)
    have a3 := mul_le_mul_of_nonneg_right nYz (show 0 ≤ (10 * ε + 460 * f.u) + (4 * ε + 95 * f.u + 2 * δ) by positivity)
    linarith

private theorem half_err (hp : 8 ≤ f.p) (x : Flt f) (hx : x.IsFin) : (x * (1 / (1 + 1))).IsFin ∧
    |(x * (1 / (1 + 1))).toReal - 1 / 2 * x.toReal| ≤ f.u * |1 / 2 * x.toReal| + f.eta := by
  have hu0 := f.u_pos
  have hu := Fmt.u_le_of_p hp
  have hh := Near.half (f := f)
  have hh2 : ((1 : Flt f) / (1 + 1)).toReal = 1 / 2 := sub_eq_zero.1 (abs_nonpos_iff.1 hh.err)
  have fin : (x * (1 / (1 + 1))).IsFin := by
    refine mul_isFin hx hh.fin ?_
    have b : |x.toReal| < (2 : ℝ) ^ (f.emax + 1) := by
      rcases x with _ | s | ⟨s, y, hy⟩
      · exact absurd hx id
      · exact absurd hx id
      · have h0 := hy.nonneg
        have h1 := hy.lt
        rcases s <;> simp only [toReal, sgn, abs_neg, if_true, Bool.false_eq_true, if_false] <;> (rw [abs_of_nonneg h0]; exact h1)
    rw [hh2, abs_mul, abs_of_pos (by norm_num : (0 : ℝ) < 1 / 2)]
    have := mul_le_mul_of_nonneg_right hu (abs_nonneg x.toReal)
    nlinarith [abs_nonneg x.toReal]
  have := mul_err fin
  rw [hh2, mul_comm x.toReal (1 / 2 : ℝ)] at this
  exact ⟨fin, this⟩

private theorem half_vec (hp : 8 ≤ f.p) (w : Vec 3 (Flt f)) (hw : ∀ i, (w i).IsFin) :
    ‖((Quat.new_imag w).smul (1 / (1 + 1))).reH - (1 / 2 : ℝ) • w.reH‖ ≤ f.u * (1 / 2 * ‖w.reH‖) + 2 * f.eta := by
  have hu0 := f.u_pos
  have key (x : Flt f) (hx : x.IsFin) := (half_err hp x hx).2
  have z0 : ((0 : Flt f)).toReal = 0 := toReal_zero
  have k0 := key 0 isFin_zero
  rw [z0] at k0
  have := norm_comps (x := ((Quat.new_imag w).smul (1 / (1 + 1))).reH - (1 / 2 : ℝ) • w.reH) (z := (1 / 2 : ℝ) • w.reH) hu0.le f.eta_pos.le
    k0 (key _ (hw 0)) (key _ (hw 1)) (key _ (hw 2))
  rwa [norm_smul, Real.norm_eq_abs, abs_of_pos (by norm_num : (0 : ℝ) < 1 / 2)] at this

/-- **C151.** The derivative of a quaternion turning with a given angular velocity: half the product of the velocity and the quaternion, up to
`5u` relative to the product of the norms; so it is orthogonal to the quaternion up to that error. -/
theorem C151_derivative (hp : 8 ≤ f.p) (q : Quat (Flt f)) (w : Vec 3 (Flt f)) (hw : ∀ i, (w i).IsFin)
    (h : ∀ i, ((q.derivative w).comp i).IsFin) :
    let E := 5 * f.u * ‖w.reH‖ * ‖q.reH‖ + 3 * f.eta * ‖q.reH‖ + 9 * f.eta
    ‖(q.derivative w).reH - (1 / 2 : ℝ) • (w.reH * q.reH)‖ ≤ E ∧ |((q.derivative w).reH * star q.reH).re| ≤ E * ‖q.reH‖ := by
  intro E
  have hu0 := f.u_pos
  have hu := Fmt.u_le_of_p hp
  have hη0 := f.eta_pos
  obtain ⟨kk, -, -⟩ := Fmt.kappa456 hp
  have h1 := half_vec hp w hw
  have h2 := (C105_product ((Quat.new_imag w).smul (1 / (1 + 1))) q h).2.1
  have e1 : ((Quat.new_imag w).smul (1 / (1 + 1))).mul q = q.derivative w := rfl
  rw [e1] at h2
  generalize ((Quat.new_imag w).smul (1 / (1 + 1))).reH = H at *
  have n0 := norm_nonneg q.reH
  have w0 := norm_nonneg w.reH
  have main : ‖(q.derivative w).reH - (1 / 2 : ℝ) • (w.reH * q.reH)‖ ≤ E := by
    have t1 := norm_sub_le_norm_sub_add_norm_sub (q.derivative w).reH (H * q.reH) ((1 / 2 : ℝ) • (w.reH * q.reH))
    have t2 : ‖H * q.reH - (1 / 2 : ℝ) • (w.reH * q.reH)‖ ≤ (f.u * (1 / 2 * ‖w.reH‖) + 2 * f.eta) * ‖q.reH‖ := by
      rw [← smul_mul_assoc, ← sub_mul, norm_mul]
      exact mul_le_mul_of_nonneg_right h1 n0
    have t3 : ‖H‖ ≤ 257 / 512 * ‖w.reH‖ + 2 * f.eta := by
      have a := norm_sub_norm_le H ((1 / 2 : ℝ) • w.reH)
      rw [norm_smul, Real.norm_eq_abs, abs_of_pos (by norm_num : (0 : ℝ) < 1 / 2)] at a
      have b := mul_le_mul_of_nonneg_right hu w0
      linarith
    have t4 : ((1 + f.u) ^ 4 - 1) * (‖H‖ * ‖q.reH‖) ≤ 404 / 100 * f.u * ((257 / 512 * ‖w.reH‖ + 2 * f.eta) * ‖q.reH‖) :=
      mul_le_mul kk (mul_le_mul_of_nonneg_right t3 n0) (by positivity) (by positivity)
    have t5 : (1 + f.u) ^ 4 * (f.eta * 4) ≤ 11 / 10 * (f.eta * 4) := mul_le_mul_of_nonneg_right (by linarith) (by positivity)
    have t6 : f.u * (f.eta * ‖q.reH‖) ≤ 1 / 256 * (f.eta * ‖q.reH‖) := mul_le_mul_of_nonneg_right hu (by positivity)
    have t7 : 0 ≤ f.u * (‖w.reH‖ * ‖q.reH‖) := by positivity
    have t8 : 0 ≤ f.eta * ‖q.reH‖ := by positivity
    simp only [E]
    linarith
  refine ⟨main, ?_⟩
  have e2 : ((1 / 2 : ℝ) • (w.reH * q.reH) * star q.reH).re = 0 := by
    rw [smul_mul_assoc, mul_assoc, Quaternion.self_mul_star, re_smul, Quaternion.mul_coe_eq_smul, re_smul]
    have : w.reH.re = 0 := rfl
    rw [this, smul_zero, smul_zero]
  have e3 : ((q.derivative w).reH * star q.reH).re = (((q.derivative w).reH - (1 / 2 : ℝ) • (w.reH * q.reH)) * star q.reH).re := by
    rw [sub_mul, re_sub, e2, sub_zero]
  rw [e3]
  refine (re_im_le _).1.trans ?_
  rw [norm_mul, Quaternion.norm_star]
  exact mul_le_mul_of_nonneg_right main n0

/-- **C151.** The derivative is finite when the entries of the quaternion and of the velocity are at most `B` in size and `8 B²` does not overflow. -/
theorem C151_derivative_finite (hp : 8 ≤ f.p) (q : Quat (Flt f)) (w : Vec 3 (Flt f)) (B : ℝ) (hB : 1 ≤ B) (hq : ∀ i, (q.comp i).FinLe B)
    (hw : ∀ i, (w i).FinLe B) (hov : (1 + f.u) ^ 4 * (8 * B ^ 2) < (2 : ℝ) ^ (f.emax + 1)) : ∀ i, ((q.derivative w).comp i).IsFin := by
  have hu0 := f.u_pos
  have hu := Fmt.u_le_of_p hp
  have hη := Fmt.eta_small hp
  have key (x : Flt f) (hx : x.FinLe B) : (x * (1 / (1 + 1))).FinLe B := by
    obtain ⟨h1, h2⟩ := half_err hp x hx.1
    refine ⟨h1, ?_⟩
    have h3 := abs_sub_abs_le_abs_sub (x * (1 / (1 + 1))).toReal (1 / 2 * x.toReal)
    rw [abs_mul, abs_of_pos (by norm_num : (0 : ℝ) < 1 / 2)] at h2 h3
    have h4 := hx.2
    have h5 := mul_le_mul_of_nonneg_right hu (show 0 ≤ 1 / 2 * |x.toReal| by positivity)
    linarith
  refine (C105_no_overflow ((Quat.new_imag w).smul (1 / (1 + 1))) q w B hB (fun i => ?_) hq hw).1 hov
  fin_cases i
  · exact key 0 ⟨isFin_zero, by rw [toReal_zero, abs_zero]; linarith⟩
  · exact key _ (hw 0)
  · exact key _ (hw 1)
  · exact key _ (hw 2)

/-- The quaternion `1 + i + j + k` in `f64` with a correctly rounded library: its computed square. -/
example : let := correctLibm Fmt.f64
    let q : Quat (Flt Fmt.f64) := ⟨1, ⟨fun _ => 1⟩, false⟩
    ‖(q.pow (Quat.new_real (1 + 1))).reH - q.reH * q.reH‖ ≤ 5500 * Fmt.f64.u := by
  let := correctLibm Fmt.f64
  have hu := Fmt.f64.u_pos
  have hu2 := Fmt.u_le_of_p Fmt.f64_wide.p
  obtain ⟨q, hq⟩ : ∃ q : Quat (Flt Fmt.f64), q = ⟨1, ⟨fun _ => 1⟩, false⟩ := ⟨_, rfl⟩
  have e : ‖q.reH‖ = 2 := by
    rw [← sq_eq_sq₀ (norm_nonneg _) (by norm_num), sq, ← Quaternion.normSq_eq_norm_mul_self, Quaternion.normSq_def', hq]
    change (1 : Flt Fmt.f64).toReal ^ 2 + (1 : Flt Fmt.f64).toReal ^ 2 + (1 : Flt Fmt.f64).toReal ^ 2 + (1 : Flt Fmt.f64).toReal ^ 2 = _
    rw [toReal_one]; norm_num
  have fin : ∀ i, (q.comp i).IsFin := by
    intro i; rw [hq]; fin_cases i <;> trivial
  obtain ⟨h1, h2, h3, h4, h5⟩ := correctLibm_all (f := Fmt.f64) Fmt.f64_wide.p
  have hu3 : 4 * Fmt.f64.u ≤ 1 / 64 := by linarith
  have h := (C151_integer_powers Fmt.f64_wide h1 h2 h3 h4 h5 hu3 le_rfl (by norm_num) q fin
    (Or.inl ⟨by rw [hq], by rw [e]; norm_num, by rw [e]; norm_num⟩) (1 + 1) Near.two.fin).2.2.1
    (sub_eq_zero.1 (abs_nonpos_iff.1 Near.two.err))
  rw [e, hq] at h
  refine h.trans ?_
  linarith

/-- Turning about the third axis with angular velocity one, at `1 + i + j + k`: the hypotheses hold. -/
example : |(((⟨1, ⟨fun _ => 1⟩, false⟩ : Quat (Flt Fmt.f32)).derivative ⟨![0, 0, 1]⟩).reH *
      star (⟨1, ⟨fun _ => 1⟩, false⟩ : Quat (Flt Fmt.f32)).reH).re| ≤
    (5 * Fmt.f32.u * ‖(⟨![0, 0, 1]⟩ : Vec 3 (Flt Fmt.f32)).reH‖ * ‖(⟨1, ⟨fun _ => 1⟩, false⟩ : Quat (Flt Fmt.f32)).reH‖ +
      3 * Fmt.f32.eta * ‖(⟨1, ⟨fun _ => 1⟩, false⟩ : Quat (Flt Fmt.f32)).reH‖ + 9 * Fmt.f32.eta) *
      ‖(⟨1, ⟨fun _ => 1⟩, false⟩ : Quat (Flt Fmt.f32)).reH‖ := by
  have one : (1 : Flt Fmt.f32).FinLe 1 := ⟨trivial, by rw [toReal_one, abs_one]⟩
  have zero : (0 : Flt Fmt.f32).FinLe 1 := ⟨trivial, by rw [toReal_zero, abs_zero]; norm_num⟩
  refine (C151_derivative Fmt.f32_wide.p _ _ (fun i => by fin_cases i <;> trivial)
    (C151_derivative_finite Fmt.f32_wide.p _ _ 1 le_rfl (fun i => ?_) (fun i => ?_) ?_)).2
  · fin_cases i <;> exact one
  · fin_cases i
    exacts [zero, zero, one]
  · have h1 := Fmt.range_of_p Fmt.f32_wide.p (x := 256) (by norm_num)
    have hu := Fmt.u_le_of_p Fmt.f32_wide.p
    have hu0 := Fmt.f32.u_pos
    obtain ⟨kk, -, -⟩ := Fmt.kappa456 Fmt.f32_wide.p
    linarith

end StaticMath

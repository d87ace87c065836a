import Verif.Props.IeeeQuatNorm
import Verif.Lemmas.ArgLip
import Mathlib.Analysis.SpecialFunctions.Exponential
import Mathlib.Analysis.Calculus.MeanValue

/-!
# C139: logarithm and square root of quaternions in floating point
-/

namespace StaticMath
open Flt Quaternion

variable {f : Fmt}

/-- On pure quaternions the exponential does not increase distances. -/
theorem exp_lip {v w : ℍ[ℝ]} (hv : v.re = 0) (hw : w.re = 0) : ‖NormedSpace.exp v - NormedSpace.exp w‖ ≤ ‖v - w‖ := by
  have n1 (x : ℍ[ℝ]) (hx : x.re = 0) (t : ℝ) : ‖NormedSpace.exp (t • x)‖ = 1 := by
    rw [Quaternion.norm_exp, re_smul, hx, smul_zero, ← Real.exp_eq_exp_ℝ, Real.exp_zero, norm_one]
  have d1 (t : ℝ) : HasDerivAt (fun t : ℝ => NormedSpace.exp (t • v)) (NormedSpace.exp (t • v) * v) t :=
    hasDerivAt_exp_smul_const v t
  have d2 (t : ℝ) : HasDerivAt (fun t : ℝ => NormedSpace.exp ((1 - t) • w)) ((-1 : ℝ) • (w * NormedSpace.exp ((1 - t) • w))) t :=
    (hasDerivAt_exp_smul_const' w (1 - t)).scomp t ((hasDerivAt_id t).const_sub 1)
  have d3 (t : ℝ) := (d1 t).mul (d2 t)
  have h := norm_image_sub_le_of_norm_deriv_le_segment_01' (f := fun t : ℝ => NormedSpace.exp (t • v) * NormedSpace.exp ((1 - t) • w))
    (C := ‖v - w‖) (fun t _ => (d3 t).hasDerivWithinAt) (fun t _ => by
      have e : NormedSpace.exp (t • v) * v * NormedSpace.exp ((1 - t) • w) +
          NormedSpace.exp (t • v) * ((-1 : ℝ) • (w * NormedSpace.exp ((1 - t) • w))) =
          NormedSpace.exp (t • v) * (v - w) * NormedSpace.exp ((1 - t) • w) := by
        rw [neg_one_smul]; noncomm_ring
      rw [e, norm_mul, norm_mul, n1 v hv, n1 w hw, one_mul, mul_one])
  simpa using h

/-- The exponential of a pure quaternion of a given length and direction. -/
theorem exp_dir {v : ℍ[ℝ]} (hv : v.re = 0) (hN : 0 < ‖v‖) (φ : ℝ) :
    NormedSpace.exp ((φ / ‖v‖) • v) = (Real.cos φ : ℍ[ℝ]) + (Real.sin φ / ‖v‖) • v := by
  have hn : ‖(φ / ‖v‖) • v‖ = |φ| := by
    rw [norm_smul, norm_div, norm_norm, Real.norm_eq_abs, div_mul_cancel₀ _ hN.ne']
  rw [Quaternion.exp_of_re_eq_zero _ (by rw [re_smul, hv, smul_zero]), hn, Real.cos_abs, smul_smul]
  congr 2
  rcases abs_choice φ with e | e <;> rw [e]
  · rcases eq_or_ne φ 0 with h | h
    · simp [h]
    · field_simp
  · rw [Real.sin_neg]
    rcases eq_or_ne φ 0 with h | h
    · simp [h]
    · field_simp

/-- A quaternion with non-zero vector part is its norm times the exponential of its polar angle in direction of the vector part. -/
theorem exp_polar {z : ℍ[ℝ]} (hN : 0 < ‖z.im‖) (hR : ‖z‖ ^ 2 = z.re ^ 2 + ‖z.im‖ ^ 2) :
    NormedSpace.exp ((Complex.arg ⟨z.re, ‖z.im‖⟩ / ‖z.im‖) • z.im) = ‖z‖⁻¹ • z := by
  have hc : (⟨z.re, ‖z.im‖⟩ : ℂ) ≠ 0 := fun h => hN.ne' (congrArg Complex.im h)
  have hnc : ‖(⟨z.re, ‖z.im‖⟩ : ℂ)‖ = ‖z‖ := by
    rw [← sq_eq_sq₀ (norm_nonneg _) (norm_nonneg _), hR, Complex.sq_norm, Complex.normSq_mk]; ring
  rw [exp_dir z.re_im hN, Complex.cos_arg hc, Complex.sin_arg, hnc]
  have e : ‖z‖⁻¹ • z = ‖z‖⁻¹ • ((z.re : ℍ[ℝ]) + z.im) := by rw [re_add_im]
  rw [e, smul_add, div_div, mul_comm ‖z‖, ← div_div, div_self hN.ne', one_div, div_eq_inv_mul]
  congr 1
  generalize ‖z‖⁻¹ = t
  rw [coe_mul, coe_mul_eq_smul]

private theorem two_round {a A v C u η : ℝ} (hu : 0 ≤ u) (hA : |A - a| ≤ u * |a| + η) :
    |v * A| ≤ (1 + u) * |v * a| + |v| * η ∧
    (|C - v * A| ≤ u * |v * A| + η → |C - v * a| ≤ ((1 + u) ^ 2 - 1) * |v * a| + ((1 + u) * |v| + 1) * η) := by
  have h1 : |v * A - v * a| ≤ u * |v * a| + |v| * η := by
    rw [← mul_sub, abs_mul, abs_mul]
    refine (mul_le_mul_of_nonneg_left hA (abs_nonneg v)).trans (le_of_eq (by ring))
  have h2 := abs_sub_abs_le_abs_sub (v * A) (v * a)
  have h3 : |v * A| ≤ (1 + u) * |v * a| + |v| * η := by linarith
  refine ⟨h3, fun hC => ?_⟩
  have h4 := abs_sub_le C (v * A) (v * a)
  have h5 := mul_le_mul_of_nonneg_left h3 hu
  nlinarith

private theorem ln_large {N n v φ u : ℝ} (hu0 : 0 < u) (hu : u ≤ 1 / 256) (hN0 : 0 ≤ N) (hn : |n - N| ≤ 5 * u * N + 2 * u ^ 2)
    (hn2 : 2 * u < n) (hv : |v| ≤ N) (hφ : |φ| ≤ 33 / 10) :
    0 < N ∧ |n - N| ≤ 61 / 10 * u * N ∧ 0 < n ∧ |φ / n| * u ≤ 2 ∧ |v * (φ / n)| ≤ 36 / 10 ∧
    |v * (φ / n) - φ / N * v| ≤ 21 * u := by
  have u2 : u ^ 2 ≤ 1 / 256 * u := by rw [sq]; exact mul_le_mul_of_nonneg_right hu hu0.le
  have uN : u * N ≤ 1 / 256 * N := mul_le_mul_of_nonneg_right hu hN0
  obtain ⟨hn3, hn4⟩ := abs_le.1 hn
  have N2 : 19 / 10 * u ≤ N := by linarith
  have Np : 0 < N := by linarith
  have hn' : |n - N| ≤ 61 / 10 * u * N := by
    have : u * (19 / 10 * u) ≤ u * N := mul_le_mul_of_nonneg_left N2 hu0.le
    nlinarith
  obtain ⟨hn5, hn6⟩ := abs_le.1 hn'
  have n0 : 0 < n := by linarith
  have nN : 97 / 100 * N ≤ n := by nlinarith
  have e1 : |φ / n| * u ≤ 2 := by
    rw [abs_div, abs_of_pos n0, div_mul_eq_mul_div, div_le_iff₀ n0]
    have := mul_le_mul_of_nonneg_right hφ hu0.le
    linarith
  have vN : |v / N| ≤ 1 := by rw [abs_div, abs_of_pos Np, div_le_one Np]; exact hv
  have Nn : |N / n| ≤ 104 / 100 := by
    rw [abs_div, abs_of_pos n0, abs_of_pos Np, div_le_iff₀ n0]; linarith
  have d : |(N - n) / n| ≤ 63 / 10 * u := by
    rw [abs_div, abs_sub_comm, abs_of_pos n0, div_le_iff₀ n0]
    have := mul_le_mul_of_nonneg_left nN hu0.le
    have : 0 ≤ u * N := by positivity
    nlinarith
  have e2 : v * (φ / n) = φ * (v / N) * (N / n) := by field_simp
  have e3 : v * (φ / n) - φ / N * v = φ * (v / N) * ((N - n) / n) := by field_simp
  have e4 : |φ * (v / N)| ≤ 33 / 10 := by
    rw [abs_mul]
    exact (mul_le_mul hφ vN (abs_nonneg _) (by norm_num)).trans (by norm_num)
  refine ⟨Np, hn', n0, e1, ?_, ?_⟩
  · rw [e2, abs_mul]
    exact (mul_le_mul e4 Nn (abs_nonneg _) (by norm_num)).trans (by norm_num)
  · rw [e3, abs_mul]
    refine (mul_le_mul e4 d (abs_nonneg _) (by norm_num)).trans (by linarith)

private theorem ln_round {X v u η : ℝ} (hu0 : 0 < u) (hu : u ≤ 1 / 256) (hη0 : 0 ≤ η) (hη : η ≤ u / 256) (hX0 : 0 ≤ X) (hX : X ≤ 36 / 10)
    (hv : |v| ≤ 2) : (1 + u) * X + |v| * η ≤ 256 ∧ ((1 + u) ^ 2 - 1) * X + ((1 + u) * |v| + 1) * η ≤ 8 * u := by
  have h1 : |v| * η ≤ 2 * η := mul_le_mul_of_nonneg_right hv hη0
  have h2 : (1 + u) * X ≤ 2 * (36 / 10) := mul_le_mul (by linarith) hX hX0 (by norm_num)
  have u2 : u ^ 2 ≤ 1 / 256 * u := by rw [sq]; exact mul_le_mul_of_nonneg_right hu hu0.le
  have h3 : ((1 + u) ^ 2 - 1) * X ≤ (201 / 100 * u) * (36 / 10) := mul_le_mul (by nlinarith) hX hX0 (by linarith)
  have h4 : ((1 + u) * |v| + 1) * η ≤ 4 * η := by
    refine mul_le_mul_of_nonneg_right ?_ hη0
    have : (1 + u) * |v| ≤ 257 / 256 * 2 := mul_le_mul (by linarith) hv (abs_nonneg _) (by norm_num)
    linarith
  constructor <;> linarith

private theorem arg_pert {r N n R b : ℝ} (hR : 0 < R) (hRr : R ^ 2 = r ^ 2 + N ^ 2) (hN : 0 ≤ N) (hn : 0 ≤ n) (h : |n - N| ≤ b) :
    |Complex.arg ⟨r, n⟩ - Complex.arg ⟨r, N⟩| ≤ 315 / 100 * (b / R) := by
  have sc (y : ℝ) : Complex.arg ⟨r / R, y / R⟩ = Complex.arg ⟨r, y⟩ := by
    have e : (⟨r / R, y / R⟩ : ℂ) = ((R⁻¹ : ℝ) : ℂ) * ⟨r, y⟩ := by
      rw [Complex.ext_iff, Complex.re_ofReal_mul, Complex.im_ofReal_mul]
      exact ⟨div_eq_inv_mul _ _, div_eq_inv_mul _ _⟩
    rw [e, Complex.arg_real_mul _ (inv_pos.2 hR)]
  have hw : ‖(⟨r / R, N / R⟩ : ℂ)‖ = 1 := by
    rw [← sq_eq_sq₀ (norm_nonneg _) zero_le_one, Complex.sq_norm, Complex.normSq_mk]
    field_simp
    linarith
  have key := arg_lip (z := ⟨r / R, n / R⟩) hw (div_nonneg hn hR.le) (div_nonneg hN hR.le)
  rw [sc, sc] at key
  have e2 : ‖(⟨r / R, n / R⟩ : ℂ) - ⟨r / R, N / R⟩‖ ≤ b / R := by
    have e3 : (⟨r / R, n / R⟩ : ℂ) - ⟨r / R, N / R⟩ = (((n - N) / R : ℝ) : ℂ) * Complex.I := by
      rw [Complex.ext_iff]; simp [sub_div]
    rw [e3, norm_mul, Complex.norm_I, mul_one, Complex.norm_real, Real.norm_eq_abs, abs_div, abs_of_pos hR]
    exact div_le_div_of_nonneg_right h hR.le
  refine key.trans ?_
  have h0 : 0 ≤ b / R := (norm_nonneg _).trans e2
  have hpi := Real.pi_lt_d2
  exact mul_le_mul (by linarith) e2 (norm_nonneg _) (by norm_num)

theorem norm_sq_re_im (z : ℍ[ℝ]) : ‖z‖ ^ 2 = z.re ^ 2 + ‖z.im‖ ^ 2 := by
  rw [sq ‖z‖, sq ‖z.im‖, ← Quaternion.normSq_eq_norm_mul_self, ← Quaternion.normSq_eq_norm_mul_self, Quaternion.normSq_def',
    Quaternion.normSq_def', re_im, imI_im, imJ_im, imK_im]
  ring

private theorem norm_im_sq' (q : Quat (Flt f)) :
    ‖q.reH.im‖ ^ 2 = (q.q 0).toReal ^ 2 + (q.q 1).toReal ^ 2 + (q.q 2).toReal ^ 2 := by
  rw [sq ‖q.reH.im‖, ← Quaternion.normSq_eq_norm_mul_self, Quaternion.normSq_def', re_im, imI_im, imJ_im, imK_im]
  change (0 : ℝ) ^ 2 + (q.q 0).toReal ^ 2 + (q.q 1).toReal ^ 2 + (q.q 2).toReal ^ 2 = _
  ring

/-- The vector part of the logarithm of `q`, as the code computes it. -/
private noncomputable def lnVec [L : Libm f] (q : Quat (Flt f)) : Vec 3 (Flt f) :=
  if ROrd.lt (epsilon f) (V3.norm2 q.q) = true then V3.smul q.q (L.atan2 (V3.norm2 q.q) q.q0 / V3.norm2 q.q)
  else ⟨![L.atan2 (V3.norm2 q.q) q.q0, 0, 0]⟩

private theorem eps_val : (epsilon f).toReal = 2 * f.u := by
  change (2 : ℝ) ^ (1 - (f.p : ℤ)) = 2 * (2 : ℝ) ^ (-(f.p : ℤ))
  rw [sub_eq_add_neg, zpow_add₀ (by norm_num), zpow_one]

/-- Vector part above epsilon. -/
private theorem lnVec_large [L : Libm f] (hw : f.Wide) {ε δ : ℝ} (hA : Atan2Acc f ε) (hε : ε ≤ 1 / 8)
    (q : Quat (Flt f)) (hq : ∀ i, (q.comp i).IsFin) (hR : |‖q.reH‖ - 1| ≤ δ) (hδ : δ ≤ 1 / 8)
    (hlt : (epsilon f).toReal < (V3.norm2 q.q).toReal) :
    (∀ i, (lnVec q i).IsFin) ∧ ‖NormedSpace.exp (lnVec q).reH - q.reH‖ ≤ ε + 80 * f.u + δ ∧ ‖(lnVec q).reH‖ ≤ 36 / 10 := by
  have hp := hw.p
  have hu0 := f.u_pos
  have hu := Fmt.u_le_of_p hp
  have hη0 := f.eta_pos
  have hη := Fmt.eta_small hp
  obtain ⟨R1, R2⟩ := _root_.abs_le.1 hR
  have hRI := norm_sq_re_im q.reH
  obtain ⟨N, hN⟩ : ∃ N, N = ‖q.reH.im‖ := ⟨_, rfl⟩
  have hN0 : 0 ≤ N := by rw [hN]; exact norm_nonneg _
  have hNR : N ≤ ‖q.reH‖ := by
    refine abs_le_of_sq_le_sq' ?_ (norm_nonneg _) |>.2
    rw [hRI, hN]; linarith [sq_nonneg q.reH.re]
  have hNs := norm_im_sq' q
  rw [← hN] at hNs hRI
  have hv : ∀ i, (q.q i).IsFin := fun i => by fin_cases i; exacts [hq 1, hq 2, hq 3]
  obtain ⟨n1, -, n2⟩ := norm2_V3_near hp hw.eta q.q hv hN0 hNs (by linarith)
  have hif : ROrd.lt (epsilon f) (V3.norm2 q.q) = true :=
    (lt_iff (a := epsilon f) (show (epsilon f).IsFin from trivial) n1).2 hlt
  have hW : lnVec q = V3.smul q.q (L.atan2 (V3.norm2 q.q) q.q0 / V3.norm2 q.q) := by unfold lnVec; rw [if_pos hif]
  rw [hW]
  rw [eps_val] at hlt
  obtain ⟨φ1, φ2⟩ := hA (V3.norm2 q.q) q.q0 n1 (hq 0) (Or.inl (by linarith))
  generalize V3.norm2 q.q = n at *
  generalize L.atan2 n q.q0 = φ at *
  have φ3 : |φ.toReal| ≤ 33 / 10 := by
    have h1 := abs_sub_abs_le_abs_sub φ.toReal (Complex.arg ⟨q.q0.toReal, n.toReal⟩)
    have h2 := Complex.abs_arg_le_pi ⟨q.q0.toReal, n.toReal⟩
    have := Real.pi_lt_d2
    linarith
  have vle (i : Fin 3) : |(q.q i).toReal| ≤ N := by
    refine abs_le_of_sq_le_sq ?_ hN0
    rw [hNs]
    have s0 := sq_nonneg (q.q 0).toReal
    have s1 := sq_nonneg (q.q 1).toReal
    have s2 := sq_nonneg (q.q 2).toReal
    fin_cases i
    · change (q.q 0).toReal ^ 2 ≤ _; linarith
    · change (q.q 1).toReal ^ 2 ≤ _; linarith
    · change (q.q 2).toReal ^ 2 ≤ _; linarith
  have comp (i : Fin 3) : Near (q.q i * (φ / n)) (φ.toReal / N * (q.q i).toReal) (29 * f.u) := by
    obtain ⟨-, -, k1, k2, k3, k4⟩ := ln_large hu0 hu hN0 n2 hlt (vle i) φ3
    have finA := div_isFin φ1 n1 k1.ne' (hw.range (by linarith))
    obtain ⟨t1, t2⟩ := two_round (v := (q.q i).toReal) (C := (q.q i * (φ / n)).toReal) hu0.le (div_err n1 finA).2
    obtain ⟨r1, r2⟩ := ln_round (v := (q.q i).toReal) hu0 hu hη0.le hη (abs_nonneg _) k3 (by have := vle i; linarith)
    have finB := mul_isFin (hv i) finA (Fmt.range_of_p hp (t1.trans r1))
    refine ⟨finB, ?_⟩
    have h1 := (t2 (mul_err finB)).trans r2
    have h2 := abs_sub_le (q.q i * (φ / n)).toReal ((q.q i).toReal * (φ.toReal / n.toReal)) (φ.toReal / N * (q.q i).toReal)
    linarith
  obtain ⟨k1, k2, k3, -, -, -⟩ := ln_large hu0 hu hN0 n2 hlt (vle 0) φ3
  have hWc (i : Fin 3) : V3.smul q.q (φ / n) i = q.q i * (φ / n) := by fin_cases i <;> rfl
  have d1 : ‖(V3.smul q.q (φ / n)).reH - (φ.toReal / N) • q.reH.im‖ ≤ 58 * f.u := by
    rw [show 58 * f.u = 2 * (29 * f.u) by ring]
    refine Quat.norm_le_two ?_ (comp 0).err (comp 1).err (comp 2).err
    rw [re_sub, re_smul, re_im, smul_zero, sub_zero]
    change |(0 : ℝ)| ≤ _
    rw [abs_zero]; positivity
  have d2 : ‖(φ.toReal / N) • q.reH.im‖ ≤ 33 / 10 := by
    rw [norm_smul, ← hN, Real.norm_eq_abs, abs_div, abs_of_pos k1, div_mul_cancel₀ _ k1.ne']
    exact φ3
  refine ⟨fun i => by rw [hWc]; exact (comp i).fin, ?_, ?_⟩
  · have a1 : |Complex.arg ⟨q.q0.toReal, n.toReal⟩ - Complex.arg ⟨q.q0.toReal, N⟩| ≤ 20 * f.u := by
      have hR0 : 0 < ‖q.reH‖ := by linarith
      refine (arg_pert hR0 hRI hN0 k3.le k2).trans ?_
      have : 61 / 10 * f.u * N / ‖q.reH‖ ≤ 61 / 10 * f.u := by
        rw [div_le_iff₀ hR0]
        exact mul_le_mul_of_nonneg_left hNR (by linarith)
      linarith
    have a2 := abs_sub_le φ.toReal (Complex.arg ⟨q.q0.toReal, n.toReal⟩) (Complex.arg ⟨q.q0.toReal, N⟩)
    have a3 := exp_lip (v := (φ.toReal / N) • q.reH.im) (w := (Complex.arg ⟨q.q0.toReal, N⟩ / N) • q.reH.im)
      (by rw [re_smul, re_im, smul_zero]) (by rw [re_smul, re_im, smul_zero])
    have a4 : ‖(φ.toReal / N) • q.reH.im - (Complex.arg ⟨q.q0.toReal, N⟩ / N) • q.reH.im‖ =
        |φ.toReal - Complex.arg ⟨q.q0.toReal, N⟩| := by
      rw [← sub_smul, ← sub_div, norm_smul, ← hN, Real.norm_eq_abs, abs_div, abs_of_pos k1, div_mul_cancel₀ _ k1.ne']
    have a5 : NormedSpace.exp ((Complex.arg ⟨q.q0.toReal, N⟩ / N) • q.reH.im) = ‖q.reH‖⁻¹ • q.reH := by
      rw [hN]
      exact exp_polar (by rw [← hN]; exact k1) (norm_sq_re_im q.reH)
    have a6 := exp_lip (v := (V3.smul q.q (φ / n)).reH) (w := (φ.toReal / N) • q.reH.im) rfl (by rw [re_smul, re_im, smul_zero])
    have a7 : ‖‖q.reH‖⁻¹ • q.reH - q.reH‖ ≤ δ := by
      have hR0 : 0 < ‖q.reH‖ := by linarith
      have e : ‖q.reH‖⁻¹ • q.reH - q.reH = (‖q.reH‖⁻¹ - 1) • q.reH := by rw [sub_smul, one_smul]
      rw [e, norm_smul, Real.norm_eq_abs]
      have e2 : |‖q.reH‖⁻¹ - 1| * ‖q.reH‖ = |‖q.reH‖ - 1| := by
        nth_rewrite 2 [← abs_of_pos hR0]
        rw [← abs_mul, sub_mul, one_mul, inv_mul_cancel₀ hR0.ne', abs_sub_comm]
      rw [e2]; exact hR
    rw [a4, a5] at a3
    have b1 := norm_sub_le_norm_sub_add_norm_sub (NormedSpace.exp (V3.smul q.q (φ / n)).reH) (NormedSpace.exp ((φ.toReal / N) • q.reH.im)) (‖q.reH‖⁻¹ • q.reH)
    have b2 := norm_sub_le_norm_sub_add_norm_sub (NormedSpace.exp (V3.smul q.q (φ / n)).reH) (‖q.reH‖⁻¹ • q.reH) q.reH
    change |φ.toReal - Complex.arg ⟨q.q0.toReal, n.toReal⟩| ≤ ε at φ2
    linarith
  · have := norm_sub_norm_le (V3.smul q.q (φ / n)).reH ((φ.toReal / N) • q.reH.im)
    linarith

private theorem arg_near_one {r n u : ℝ} (hu : 0 < u) (hr : 86 / 100 ≤ r) (hn0 : 0 ≤ n) (hn : n ≤ 2 * u) : |Complex.arg ⟨r, n⟩| ≤ 8 * u := by
  have h := arg_pert (r := r) (N := 0) (n := n) (R := r) (b := 2 * u) (by linarith) (by ring) le_rfl hn0 (by rw [sub_zero, abs_of_nonneg hn0]; exact hn)
  have e : Complex.arg ⟨r, 0⟩ = 0 := Complex.arg_ofReal_of_nonneg (by linarith : 0 ≤ r)
  rw [e, sub_zero] at h
  refine h.trans ?_
  have : 2 * u / r ≤ 2 * u / (86 / 100) := by gcongr
  have e2 : 2 * u / (86 / 100) = 200 / 86 * u := by ring
  linarith

private theorem arg_near_neg {r n u : ℝ} (hu : 0 < u) (hr : r ≤ -(86 / 100)) (hn0 : 0 ≤ n) (hn : n ≤ 2 * u) :
    |Complex.arg ⟨r, n⟩ - Real.pi| ≤ 8 * u := by
  have h := arg_pert (r := r) (N := 0) (n := n) (R := -r) (b := 2 * u) (by linarith) (by ring) le_rfl hn0 (by rw [sub_zero, abs_of_nonneg hn0]; exact hn)
  have e : Complex.arg ⟨r, 0⟩ = Real.pi := Complex.arg_ofReal_of_neg (by linarith : r < 0)
  rw [e] at h
  refine h.trans ?_
  have : 2 * u / (-r) ≤ 2 * u / (86 / 100) := by gcongr; linarith
  have e2 : 2 * u / (86 / 100) = 200 / 86 * u := by ring
  linarith

private theorem small_real {N n u R r δ : ℝ} (hu0 : 0 < u) (hu : u ≤ 1 / 256) (hN0 : 0 ≤ N) (hn : |n - N| ≤ 5 * u * N + 2 * u ^ 2)
    (hn2 : n ≤ 2 * u) (hR : |R - 1| ≤ δ) (hδ : δ ≤ 1 / 8) (hRI : R ^ 2 = r ^ 2 + N ^ 2) (hR0 : 0 ≤ R) :
    N ≤ 22 / 10 * u ∧ |(|r| - 1)| ≤ δ + 22 / 10 * u ∧ (86 / 100 ≤ |r|) := by
  have u2 : u ^ 2 ≤ 1 / 256 * u := by rw [sq]; exact mul_le_mul_of_nonneg_right hu hu0.le
  have uN : u * N ≤ 1 / 256 * N := mul_le_mul_of_nonneg_right hu hN0
  have N2 : N ≤ 22 / 10 * u := by
    have := (abs_le.1 hn).1
    linarith
  obtain ⟨R1, R2⟩ := abs_le.1 hR
  rw [← sq_abs r] at hRI
  have r0 := abs_nonneg r
  generalize |r| = s at *
  have s1 : s ≤ R := abs_le_of_sq_le_sq' (by nlinarith [sq_nonneg N]) hR0 |>.2
  have s2 : R ≤ s + N := abs_le_of_sq_le_sq' (by nlinarith [mul_nonneg r0 hN0]) (by linarith) |>.2
  refine ⟨N2, ?_, by linarith⟩
  rw [abs_le]; constructor <;> linarith

private theorem exp_pi_i (s : ℝ) (hs : s = 1 ∨ s = -1) (x : ℍ[ℝ]) (hx : x.re = 0) (hxI : x.imI = s * Real.pi) (hxJ : x.imJ = 0) (hxK : x.imK = 0) :
    NormedSpace.exp x = ((-1 : ℝ) : ℍ[ℝ]) := by
  have hn : ‖x‖ = Real.pi := by
    rw [← sq_eq_sq₀ (norm_nonneg _) Real.pi_pos.le, sq, ← Quaternion.normSq_eq_norm_mul_self, Quaternion.normSq_def', hx, hxI, hxJ, hxK]
    rcases hs with e | e <;> rw [e] <;> ring
  rw [Quaternion.exp_of_re_eq_zero x hx, hn, Real.cos_pi, Real.sin_pi, zero_div, zero_smul, add_zero]

private theorem pure_i_sub (a : ℝ) (x : ℍ[ℝ]) (w : Vec 3 (Flt f)) (h1 : w 1 = 0) (h2 : w 2 = 0) (hx : x.re = 0) (hxI : x.imI = a) (hxJ : x.imJ = 0) (hxK : x.imK = 0) :
    ‖w.reH - x‖ = |(w 0).toReal - a| := by
  rw [← sq_eq_sq₀ (norm_nonneg _) (abs_nonneg _), sq, ← Quaternion.normSq_eq_norm_mul_self, Quaternion.normSq_def', re_sub, imI_sub, imJ_sub, imK_sub,
    hx, hxI, hxJ, hxK, sq_abs]
  change ((0 : ℝ) - 0) ^ 2 + ((w 0).toReal - a) ^ 2 + ((w 1).toReal - 0) ^ 2 + ((w 2).toReal - 0) ^ 2 = _
  rw [h1, h2, toReal_zero]; ring

private theorem sub_coe_norm (q : ℍ[ℝ]) (s : ℝ) : ‖(s : ℍ[ℝ]) - q‖ ≤ |q.re - s| + ‖q.im‖ := by
  have e : (s : ℍ[ℝ]) - q = ((s - q.re : ℝ) : ℍ[ℝ]) - q.im := by
    conv_lhs => rw [← re_add_im q]
    rw [coe_sub]; abel
  rw [e]
  refine (norm_sub_le _ _).trans (le_of_eq ?_)
  rw [Quaternion.norm_coe, Real.norm_eq_abs, abs_sub_comm]

/-- Vector part below epsilon. -/
private theorem lnVec_small [L : Libm f] (hw : f.Wide) {ε δ : ℝ} (hA : Atan2Acc f ε) (hB : Atan2Neg f ε) (hε : ε ≤ 1 / 8)
    (q : Quat (Flt f)) (hq : ∀ i, (q.comp i).IsFin) (hR : |‖q.reH‖ - 1| ≤ δ) (hδ : δ ≤ 1 / 8)
    (hlt : ¬(epsilon f).toReal < (V3.norm2 q.q).toReal) :
    (∀ i, (lnVec q i).IsFin) ∧ ‖NormedSpace.exp (lnVec q).reH - q.reH‖ ≤ ε + 80 * f.u + δ ∧ ‖(lnVec q).reH‖ ≤ 36 / 10 := by
  have hp := hw.p
  have hu0 := f.u_pos
  have hu := Fmt.u_le_of_p hp
  obtain ⟨R1, R2⟩ := _root_.abs_le.1 hR
  have hRI := norm_sq_re_im q.reH
  obtain ⟨N, hN⟩ : ∃ N, N = ‖q.reH.im‖ := ⟨_, rfl⟩
  have hN0 : 0 ≤ N := by rw [hN]; exact norm_nonneg _
  have hNR : N ≤ ‖q.reH‖ := by
    refine abs_le_of_sq_le_sq' ?_ (norm_nonneg _) |>.2
    rw [hRI, hN]; linarith [sq_nonneg q.reH.re]
  have hNs := norm_im_sq' q
  rw [← hN] at hNs hRI
  have hv : ∀ i, (q.q i).IsFin := fun i => by fin_cases i; exacts [hq 1, hq 2, hq 3]
  obtain ⟨n1, n0, n2⟩ := norm2_V3_near hp hw.eta q.q hv hN0 hNs (by linarith)
  have hif : ¬ROrd.lt (epsilon f) (V3.norm2 q.q) = true := fun h =>
    hlt ((lt_iff (a := epsilon f) (show (epsilon f).IsFin from trivial) n1).1 h)
  have hW : lnVec q = ⟨![L.atan2 (V3.norm2 q.q) q.q0, 0, 0]⟩ := by unfold lnVec; rw [if_neg hif]
  rw [hW]
  rw [eps_val, not_lt] at hlt
  obtain ⟨N2, r1, r2⟩ := small_real hu0 hu hN0 n2 hlt hR hδ hRI (norm_nonneg _)
  have ang : (L.atan2 (V3.norm2 q.q) q.q0).IsFin ∧ ∃ s a : ℝ, (s = 1 ∨ s = -1) ∧ |(L.atan2 (V3.norm2 q.q) q.q0).toReal - a| ≤ ε + 8 * f.u ∧
      |a| ≤ Real.pi ∧ |q.reH.re - s| ≤ δ + 22 / 10 * f.u ∧ ((s = 1 ∧ a = 0) ∨ (s = -1 ∧ (a = Real.pi ∨ a = -Real.pi))) := by
    have hpi := Real.pi_pos
    change |(|q.q0.toReal| - 1)| ≤ _ at r1
    change _ ≤ |q.q0.toReal| at r2
    rcases le_or_gt 0 q.q0.toReal with hr | hr
    · rw [abs_of_nonneg hr] at r1 r2
      obtain ⟨φ1, φ2⟩ := hA (V3.norm2 q.q) q.q0 n1 (hq 0) (Or.inr (by linarith))
      refine ⟨φ1, 1, 0, Or.inl rfl, ?_, by rw [abs_zero]; exact hpi.le, r1, Or.inl ⟨rfl, rfl⟩⟩
      have := arg_near_one hu0 r2 n0 hlt
      rw [sub_zero]
      have h1 := abs_sub_abs_le_abs_sub (L.atan2 (V3.norm2 q.q) q.q0).toReal (Complex.arg ⟨q.q0.toReal, (V3.norm2 q.q).toReal⟩)
      linarith
    · rw [abs_of_neg hr] at r1 r2
      have r3 : |q.reH.re - -1| ≤ δ + 22 / 10 * f.u := by
        change |q.q0.toReal - -1| ≤ _
        rw [show q.q0.toReal - -1 = -(-q.q0.toReal - 1) by ring, abs_neg]; exact r1
      rcases n0.eq_or_lt with hz | hz
      · obtain ⟨φ1, φ2⟩ := hB (V3.norm2 q.q) q.q0 n1 (hq 0) hz.symm hr
        refine ⟨φ1, ?_⟩
        generalize (L.atan2 (V3.norm2 q.q) q.q0).toReal = t at *
        rcases le_or_gt 0 t with ht | ht
        · rw [abs_of_nonneg ht] at φ2
          exact ⟨-1, Real.pi, Or.inr rfl, by linarith, by rw [abs_of_pos hpi], r3, Or.inr ⟨rfl, Or.inl rfl⟩⟩
        · rw [abs_of_neg ht, show -t - Real.pi = -(t - -Real.pi) by ring, abs_neg] at φ2
          exact ⟨-1, -Real.pi, Or.inr rfl, by linarith, by rw [abs_neg, abs_of_pos hpi], r3, Or.inr ⟨rfl, Or.inr rfl⟩⟩
      · obtain ⟨φ1, φ2⟩ := hA (V3.norm2 q.q) q.q0 n1 (hq 0) (Or.inl hz)
        refine ⟨φ1, -1, Real.pi, Or.inr rfl, ?_, by rw [abs_of_pos hpi], r3, Or.inr ⟨rfl, Or.inl rfl⟩⟩
        have h0 := arg_near_neg (r := q.q0.toReal) hu0 (by linarith) n0 hlt
        have h1 := abs_sub_le (L.atan2 (V3.norm2 q.q) q.q0).toReal (Complex.arg ⟨q.q0.toReal, (V3.norm2 q.q).toReal⟩) Real.pi
        linarith
  obtain ⟨φ1, s, a, hs, ha, hap, hre, hsa⟩ := ang
  generalize L.atan2 (V3.norm2 q.q) q.q0 = φ at *
  have ex : ∃ x : ℍ[ℝ], x.re = 0 ∧ x.imI = a ∧ x.imJ = 0 ∧ x.imK = 0 := ⟨⟨0, a, 0, 0⟩, rfl, rfl, rfl, rfl⟩
  obtain ⟨x, x0, x1, x2, x3⟩ := ex
  have hx : NormedSpace.exp x = (s : ℍ[ℝ]) := by
    rcases hsa with ⟨e1, e2⟩ | ⟨e1, e2⟩
    · have : x = 0 := by ext <;> simp [x0, x1, x2, x3, e2]
      rw [this, NormedSpace.exp_zero, e1, coe_one]
    · rw [e1]
      rcases e2 with e2 | e2
      · exact exp_pi_i 1 (Or.inl rfl) x x0 (by rw [x1, e2, one_mul]) x2 x3
      · exact exp_pi_i (-1) (Or.inr rfl) x x0 (by rw [x1, e2]; ring) x2 x3
  have dx : ‖(⟨![φ, 0, 0]⟩ : Vec 3 (Flt f)).reH - x‖ = |φ.toReal - a| :=
    pure_i_sub a x (⟨![φ, 0, 0]⟩ : Vec 3 (Flt f)) rfl rfl x0 x1 x2 x3
  have d0 : ‖(⟨![φ, 0, 0]⟩ : Vec 3 (Flt f)).reH‖ = |φ.toReal| := by
    have := pure_i_sub 0 0 (⟨![φ, 0, 0]⟩ : Vec 3 (Flt f)) rfl rfl rfl rfl rfl rfl
    rw [sub_zero, sub_zero] at this
    exact this
  refine ⟨fun i => by fin_cases i; exacts [φ1, isFin_zero, isFin_zero], ?_, ?_⟩
  · have h1 := exp_lip (v := (⟨![φ, 0, 0]⟩ : Vec 3 (Flt f)).reH) (w := x) rfl x0
    rw [hx, dx] at h1
    have h2 := norm_sub_le_norm_sub_add_norm_sub (NormedSpace.exp (⟨![φ, 0, 0]⟩ : Vec 3 (Flt f)).reH) (s : ℍ[ℝ]) q.reH
    have h3 := sub_coe_norm q.reH s
    rw [← hN] at h3
    linarith
  · rw [d0]
    have := abs_sub_abs_le_abs_sub φ.toReal a
    have := Real.pi_lt_d2
    linarith

private theorem lnVec_core [L : Libm f] (hw : f.Wide) {ε δ : ℝ} (hA : Atan2Acc f ε) (hB : Atan2Neg f ε) (hε : ε ≤ 1 / 8)
    (q : Quat (Flt f)) (hq : ∀ i, (q.comp i).IsFin) (hR : |‖q.reH‖ - 1| ≤ δ) (hδ : δ ≤ 1 / 8) :
    (∀ i, (lnVec q i).IsFin) ∧ ‖NormedSpace.exp (lnVec q).reH - q.reH‖ ≤ ε + 80 * f.u + δ ∧ ‖(lnVec q).reH‖ ≤ 36 / 10 := by
  by_cases hlt : (epsilon f).toReal < (V3.norm2 q.q).toReal
  · exact lnVec_large hw hA hε q hq hR hδ hlt
  · exact lnVec_small hw hA hB hε q hq hR hδ hlt

theorem exp_split (z : ℍ[ℝ]) : NormedSpace.exp z = Real.exp z.re • NormedSpace.exp z.im := by
  rw [Quaternion.exp_eq z, Quaternion.exp_of_re_eq_zero z.im z.re_im, ← Real.exp_eq_exp_ℝ]

theorem norm_exp_pure {x : ℍ[ℝ]} (hx : x.re = 0) : ‖NormedSpace.exp x‖ = 1 := by
  rw [Quaternion.norm_exp, hx, ← Real.exp_eq_exp_ℝ, Real.exp_zero, norm_one]

theorem re_im_le (z : ℍ[ℝ]) : |z.re| ≤ ‖z‖ ∧ ‖z.im‖ ≤ ‖z‖ := by
  have h := norm_sq_re_im z
  constructor
  · refine abs_le_of_sq_le_sq ?_ (norm_nonneg _)
    rw [h]; linarith [sq_nonneg ‖z.im‖]
  · refine abs_le_of_sq_le_sq' ?_ (norm_nonneg _) |>.2
    rw [h]; linarith [sq_nonneg z.re]

/-- The logarithm of a quaternion, from its unit part and norm. -/
private theorem ln_core [L : Libm f] (hw : f.Wide) {ε δ : ℝ} (hA : Atan2Acc f ε) (hB : Atan2Neg f ε) (hl : LnAcc f ε) (hε : ε ≤ 1 / 8)
    (q l : Quat (Flt f)) (a : Flt f) (hq : ∀ i, (q.comp i).IsFin) (hR : |‖q.reH‖ - 1| ≤ δ) (hδ : δ ≤ 1 / 8) (ha : a.IsFin)
    (ha1 : 1 / 32 ≤ a.toReal) (ha2 : a.toReal ≤ 32) (h0 : l.q0 = L.ln a) (hi : l.q = lnVec q) :
    (∀ i, (l.comp i).IsFin) ∧ |l.reH.re| ≤ 4 ∧ ‖l.reH.im‖ ≤ 36 / 10 ∧ Real.exp l.reH.re ≤ (1 + 2 * ε) * a.toReal ∧
    ‖NormedSpace.exp l.reH - a.toReal • q.reH‖ ≤ a.toReal * (3 * ε + 80 * f.u + δ) := by
  obtain ⟨w1, w2, w3⟩ := lnVec_core hw hA hB hε q hq hR hδ
  obtain ⟨l1, l2⟩ := hl a ha ha1 ha2
  have e0 : l.reH.re = (L.ln a).toReal := by rw [← h0]; rfl
  have ei : l.reH.im = (lnVec q).reH := by rw [← hi]; ext <;> rfl
  rw [exp_split, e0, ei]
  have wr : (lnVec q).reH.re = 0 := rfl
  have hn := norm_exp_pure wr
  generalize hWd : (lnVec q).reH = W at *
  have a0 : 0 < a.toReal := by linarith
  have ε0 : 0 ≤ ε := (abs_nonneg _).trans l2
  have hexp : |Real.exp (L.ln a).toReal - a.toReal| ≤ 2 * ε * a.toReal := by
    have h1 := Real.abs_exp_sub_one_le (x := (L.ln a).toReal - Real.log a.toReal) (by linarith)
    have h2 : Real.exp (L.ln a).toReal - a.toReal = a.toReal * (Real.exp ((L.ln a).toReal - Real.log a.toReal) - 1) := by
      rw [Real.exp_sub, Real.exp_log a0]; field_simp
    rw [h2, abs_mul, abs_of_pos a0, mul_comm]
    refine mul_le_mul_of_nonneg_right ?_ a0.le
    linarith
  have hlog : |Real.log a.toReal| ≤ 36 / 10 := by
    have h32 : Real.log 32 ≤ 35 / 10 := by
      have : Real.log 32 = 5 * Real.log 2 := by rw [show (32 : ℝ) = 2 ^ 5 by norm_num, Real.log_pow]; norm_num
      rw [this]; linarith [Real.log_two_lt_d9]
    rw [_root_.abs_le]
    constructor
    · have := Real.log_le_log (by norm_num) ha1
      rw [one_div, Real.log_inv] at this
      linarith
    · have := Real.log_le_log a0 ha2
      linarith
  refine ⟨fun i => ?_, ?_, w3, ?_, ?_⟩
  · fin_cases i
    · change l.q0.IsFin; rw [h0]; exact l1
    · change (l.q 0).IsFin; rw [hi]; exact w1 0
    · change (l.q 1).IsFin; rw [hi]; exact w1 1
    · change (l.q 2).IsFin; rw [hi]; exact w1 2
  · have := abs_sub_abs_le_abs_sub (L.ln a).toReal (Real.log a.toReal)
    linarith
  · have := (_root_.abs_le.1 hexp).2
    linarith
  · have e : Real.exp (L.ln a).toReal • NormedSpace.exp W - a.toReal • q.reH =
        (Real.exp (L.ln a).toReal - a.toReal) • NormedSpace.exp W + a.toReal • (NormedSpace.exp W - q.reH) := by
      rw [sub_smul, smul_sub]; abel
    rw [e]
    refine (norm_add_le _ _).trans ?_
    rw [norm_smul, norm_smul, hn, mul_one, Real.norm_eq_abs, Real.norm_eq_abs, abs_of_pos a0]
    have := mul_le_mul_of_nonneg_left w2 a0.le
    linarith

private theorem ln_eq [L : Libm f] (q : Quat (Flt f)) : q.ln.q0 = L.ln q.normalize_a.2 ∧ q.ln.q = lnVec q.normalize_a.1 := by
  constructor
  · unfold Quat.ln; split
    rename_i q_norm a h
    rw [h]
    exact (apply_ite Quat.q0 _ _ _).trans (ite_self _)
  · unfold Quat.ln; split
    rename_i q_norm a h
    rw [h]
    exact apply_ite Quat.q _ _ _

/-- **C139.** The logarithm of an unflagged quaternion of norm between 1/16 and 8 is finite, and its exact exponential is the
quaternion up to `4ε + 95u` relative to its norm. -/
theorem C139_ln [L : Libm f] (hw : f.Wide) {ε : ℝ} (hA : Atan2Acc f ε) (hB : Atan2Neg f ε) (hl : LnAcc f ε) (hε : ε ≤ 1 / 8)
    (q : Quat (Flt f)) (hq : ∀ i, (q.comp i).IsFin) (hflag : q.normalized = false) (h1 : 1 / 16 ≤ ‖q.reH‖) (h8 : ‖q.reH‖ ≤ 8) :
    (∀ i, (q.ln.comp i).IsFin) ∧ |q.ln.reH.re| ≤ 4 ∧ ‖q.ln.reH.im‖ ≤ 36 / 10 ∧ Real.exp q.ln.reH.re ≤ 127 / 100 * ‖q.reH‖ ∧
    ‖NormedSpace.exp q.ln.reH - q.reH‖ ≤ ‖q.reH‖ * (4 * ε + 95 * f.u) := by
  have hp := hw.p
  have hu0 := f.u_pos
  have hu := Fmt.u_le_of_p hp
  obtain ⟨hn, hη⟩ := Quat.norm2_isFin hw q hq h1 h8
  have M0 : 0 < ‖q.reH‖ := by linarith
  obtain ⟨k1, k2, -, k4, k5⟩ := C139_normalize_a hp q hq hflag hn M0 hη
  obtain ⟨e0, ei⟩ := ln_eq q
  have ε0 : 0 ≤ ε := (abs_nonneg _).trans (hA 1 1 trivial trivial (Or.inl (by rw [toReal_one]; norm_num))).2
  have hz : ‖‖q.reH‖⁻¹ • q.reH‖ = 1 := by rw [norm_smul, norm_inv, norm_norm, inv_mul_cancel₀ M0.ne']
  have hR : |‖q.normalize_a.1.reH‖ - 1| ≤ 5 * f.u := by
    have := abs_norm_sub_norm_le q.normalize_a.1.reH (‖q.reH‖⁻¹ • q.reH)
    rw [hz] at this
    exact this.trans k4
  obtain ⟨a1, a2⟩ := _root_.abs_le.1 k5
  have uM : f.u * ‖q.reH‖ ≤ 1 / 256 * ‖q.reH‖ := mul_le_mul_of_nonneg_right hu M0.le
  obtain ⟨c1, c2, c3, c4, c5⟩ := ln_core hw hA hB hl hε q.normalize_a.1 q.ln q.normalize_a.2 k1 hR (by linarith) k2 (by linarith) (by linarith) e0 ei
  generalize q.normalize_a.1 = r at *
  generalize q.normalize_a.2.toReal = a at *
  generalize NormedSpace.exp q.ln.reH = X at *
  have d1 : ‖a • r.reH - q.reH‖ ≤ 36 / 10 * f.u * ‖q.reH‖ + 5 * f.u * ‖q.reH‖ := by
    have e : a • r.reH - q.reH = (a - ‖q.reH‖) • r.reH + ‖q.reH‖ • (r.reH - ‖q.reH‖⁻¹ • q.reH) := by
      rw [smul_sub, smul_smul, mul_inv_cancel₀ M0.ne', one_smul, sub_smul]; abel
    rw [e]
    refine (norm_add_le _ _).trans ?_
    rw [norm_smul, norm_smul, Real.norm_eq_abs, norm_norm]
    refine add_le_add ?_ ?_
    · have := (_root_.abs_le.1 hR).2
      refine (mul_le_mul k5 (show ‖r.reH‖ ≤ 36 / 35 by linarith) (norm_nonneg _) (by positivity)).trans (le_of_eq (by ring))
    · rw [mul_comm]; exact mul_le_mul_of_nonneg_right k4 M0.le
  have aM : a ≤ 1014 / 1000 * ‖q.reH‖ := by linarith
  refine ⟨c1, c2, c3, ?_, ?_⟩
  · refine c4.trans ((mul_le_mul (show 1 + 2 * ε ≤ 5 / 4 by linarith) aM (by linarith) (by norm_num)).trans ?_)
    linarith
  · have h2 := norm_sub_le_norm_sub_add_norm_sub X (a • r.reH) q.reH
    have h3 : a * (3 * ε + 80 * f.u + 5 * f.u) ≤ 1014 / 1000 * ‖q.reH‖ * (3 * ε + 80 * f.u + 5 * f.u) :=
      mul_le_mul_of_nonneg_right aM (by positivity)
    have h4 : 0 ≤ ‖q.reH‖ * ε := by positivity
    have h5 : 0 ≤ ‖q.reH‖ * f.u := by positivity
    nlinarith

/-- **C139.** The logarithm of a quaternion flagged as normalised: if its norm is one up to `δ`, the exact exponential of
the logarithm is the quaternion up to `3ε + 80u + δ`. -/
theorem C139_ln_unit [L : Libm f] (hw : f.Wide) {ε δ : ℝ} (hA : Atan2Acc f ε) (hB : Atan2Neg f ε) (hl : LnAcc f ε) (hε : ε ≤ 1 / 8)
    (q : Quat (Flt f)) (hq : ∀ i, (q.comp i).IsFin) (hflag : q.normalized = true) (hδ : δ ≤ 1 / 8) (hR : |‖q.reH‖ - 1| ≤ δ) :
    (∀ i, (q.ln.comp i).IsFin) ∧ |q.ln.reH.re| ≤ 4 ∧ ‖q.ln.reH.im‖ ≤ 36 / 10 ∧ Real.exp q.ln.reH.re ≤ 5 / 4 ∧
    ‖NormedSpace.exp q.ln.reH - q.reH‖ ≤ 3 * ε + 80 * f.u + δ := by
  obtain ⟨e0, ei⟩ := ln_eq q
  have en : q.normalize_a = (q, 1) := by unfold Quat.normalize_a; rw [if_pos hflag]
  rw [en] at e0 ei
  obtain ⟨c1, c2, c3, c4, c5⟩ := ln_core hw hA hB hl hε q q.ln 1 hq hR hδ trivial (by rw [toReal_one]; norm_num) (by rw [toReal_one]; norm_num) e0 ei
  rw [toReal_one, one_smul, one_mul] at c5
  rw [toReal_one] at c4
  exact ⟨c1, c2, c3, by linarith, c5⟩

private theorem exp_core [L : Libm f] (hw : f.Wide) {ε : ℝ} (hsc : SinCosAcc f ε) (he : ExpAcc f ε) (hε : ε ≤ 1 / 8) (l : Quat (Flt f))
    (hl : ∀ i, (l.comp i).IsFin) (hr : |l.reH.re| ≤ 4) (hi : ‖l.reH.im‖ ≤ 36 / 10) :
    (∀ i, (l.exp.comp i).IsFin) ∧ ‖l.exp.reH - NormedSpace.exp l.reH‖ ≤ Real.exp l.reH.re * (6 * ε + 86 * f.u) := by
  obtain ⟨h1, h2⟩ := C138_exp hw hsc he hε l hl hr (by linarith)
  refine ⟨h1, h2.trans (mul_le_mul_of_nonneg_left ?_ (Real.exp_pos _).le)⟩
  have := mul_le_mul_of_nonneg_right (show 16 * ‖l.reH.im‖ + 28 ≤ 86 by linarith) f.u_pos.le
  linarith

/-- **C139.** In floating point the exponential of the logarithm gives the quaternion back. -/
theorem C139_exp_ln [L : Libm f] (hw : f.Wide) {ε : ℝ} (hsc : SinCosAcc f ε) (he : ExpAcc f ε) (hA : Atan2Acc f ε) (hB : Atan2Neg f ε)
    (hl : LnAcc f ε) (hε : ε ≤ 1 / 8) (q : Quat (Flt f)) (hq : ∀ i, (q.comp i).IsFin) (hflag : q.normalized = false)
    (h1 : 1 / 16 ≤ ‖q.reH‖) (h8 : ‖q.reH‖ ≤ 8) :
    (∀ i, (q.ln.exp.comp i).IsFin) ∧ ‖q.ln.exp.reH - q.reH‖ ≤ ‖q.reH‖ * (12 * ε + 205 * f.u) := by
  obtain ⟨c1, c2, c3, c4, c5⟩ := C139_ln hw hA hB hl hε q hq hflag h1 h8
  obtain ⟨d1, d2⟩ := exp_core hw hsc he hε q.ln c1 c2 c3
  refine ⟨d1, ?_⟩
  have hu0 := f.u_pos
  have ε0 : 0 ≤ ε := (abs_nonneg _).trans (hA 1 1 trivial trivial (Or.inl (by rw [toReal_one]; norm_num))).2
  have h2 := norm_sub_le_norm_sub_add_norm_sub q.ln.exp.reH (NormedSpace.exp q.ln.reH) q.reH
  have h3 := mul_le_mul_of_nonneg_right c4 (show 0 ≤ 6 * ε + 86 * f.u by positivity)
  have h4 : 0 ≤ ‖q.reH‖ * ε := by positivity
  have h5 : 0 ≤ ‖q.reH‖ * f.u := by positivity
  nlinarith

private theorem half_near (hp : 8 ≤ f.p) (l : Quat (Flt f)) (hl : ∀ i, (l.comp i).IsFin) (hr : |l.reH.re| ≤ 4) (hi : ‖l.reH.im‖ ≤ 36 / 10) :
    (∀ i, ((l.smul (1 / (1 + 1))).comp i).IsFin) ∧ ‖(l.smul (1 / (1 + 1))).reH - (1 / 2 : ℝ) • l.reH‖ ≤ 3 * f.u := by
  have hu0 := f.u_pos
  have hu := Fmt.u_le_of_p hp
  have hη := Fmt.eta_small hp
  have hη0 := f.eta_pos
  have hh := Near.half (f := f)
  have hh2 : ((1 : Flt f) / (1 + 1)).toReal = 1 / 2 := sub_eq_zero.1 (abs_nonpos_iff.1 hh.err)
  have hL : ‖l.reH‖ ≤ 54 / 10 := by
    refine abs_le_of_sq_le_sq' ?_ (by norm_num) |>.2
    rw [norm_sq_re_im, ← sq_abs l.reH.re]
    have a := pow_le_pow_left₀ (abs_nonneg _) hr 2
    have b := pow_le_pow_left₀ (norm_nonneg _) hi 2
    linarith
  have key (i : Fin 4) : (l.comp i * (1 / (1 + 1))).IsFin ∧
      |(l.comp i * (1 / (1 + 1))).toReal - 1 / 2 * (l.comp i).toReal| ≤ f.u * |1 / 2 * (l.comp i).toReal| + f.eta := by
    have h1 := l.comp_le_reH i
    have h2 : |(l.comp i).toReal * ((1 : Flt f) / (1 + 1)).toReal| ≤ 256 := by
      rw [hh2, abs_mul, abs_of_pos (by norm_num : (0 : ℝ) < 1 / 2)]; linarith
    have fin := mul_isFin (hl i) hh.fin (Fmt.range_of_p hp h2)
    refine ⟨fin, ?_⟩
    have := mul_err fin
    rw [hh2, mul_comm _ (1 / 2 : ℝ)] at this
    exact this
  constructor
  · intro i
    have := (key i).1
    fin_cases i <;> exact this
  have := norm_comps (x := (l.smul (1 / (1 + 1))).reH - (1 / 2 : ℝ) • l.reH) (z := (1 / 2 : ℝ) • l.reH) hu0.le hη0.le
    (key 0).2 (key 1).2 (key 2).2 (key 3).2
  rw [norm_smul, Real.norm_eq_abs, abs_of_pos (by norm_num : (0 : ℝ) < 1 / 2)] at this
  have h3 := mul_le_mul_of_nonneg_left hL hu0.le
  linarith

private theorem sqrt_real {s E : ℍ[ℝ]} {e κ : ℝ} (hE : ‖E‖ = e) (hκ1 : κ ≤ 1) (h : ‖s - E‖ ≤ e * κ) : ‖s * s - E * E‖ ≤ 3 * κ * e ^ 2 := by
  have e0 : 0 ≤ e := by rw [← hE]; exact norm_nonneg _
  have eκ : 0 ≤ e * κ := (norm_nonneg _).trans h
  have h1 : s * s - E * E = (s - E) * (s - E) + (s - E) * E + E * (s - E) := by noncomm_ring
  rw [h1]
  refine (norm_add₃_le).trans ?_
  rw [norm_mul, norm_mul, norm_mul, hE]
  have h2 := mul_le_mul h h (norm_nonneg _) eκ
  have h3 := mul_le_mul_of_nonneg_right h e0
  have h4 : e * κ * (e * κ) ≤ e * κ * (e * 1) := mul_le_mul_of_nonneg_left (mul_le_mul_of_nonneg_left hκ1 e0) eκ
  linarith

private theorem sqrt_core [L : Libm f] (hw : f.Wide) {ε : ℝ} (hsc : SinCosAcc f ε) (he : ExpAcc f ε) (hε : ε ≤ 1 / 8) (l : Quat (Flt f))
    (hl : ∀ i, (l.comp i).IsFin) (hr : |l.reH.re| ≤ 4) (hi : ‖l.reH.im‖ ≤ 36 / 10) :
    (∀ i, ((l.smul (1 / (1 + 1))).exp.comp i).IsFin) ∧
    ‖(l.smul (1 / (1 + 1))).exp.reH * (l.smul (1 / (1 + 1))).exp.reH - NormedSpace.exp l.reH‖ ≤ Real.exp l.reH.re * (19 * ε + 205 * f.u) := by
  have hp := hw.p
  have hu0 := f.u_pos
  have hu := Fmt.u_le_of_p hp
  have ε0 : 0 ≤ ε := (abs_nonneg _).trans (hsc.cos 1 trivial).2
  obtain ⟨H1, H2⟩ := half_near hp l hl hr hi
  obtain ⟨r1, r2⟩ := re_im_le ((l.smul (1 / (1 + 1))).reH - (1 / 2 : ℝ) • l.reH)
  generalize l.smul (1 / (1 + 1)) = H at *
  have r3 : |H.reH.re - 1 / 2 * l.reH.re| ≤ 3 * f.u := by
    rw [re_sub, re_smul] at r1; exact r1.trans H2
  have r4 : ‖H.reH.im - (1 / 2 : ℝ) • l.reH.im‖ ≤ 3 * f.u := by
    have e : (H.reH - (1 / 2 : ℝ) • l.reH).im = H.reH.im - (1 / 2 : ℝ) • l.reH.im := by ext <;> simp
    rw [e] at r2; exact r2.trans H2
  have i1 : ‖H.reH.im‖ ≤ 182 / 100 := by
    have h1 := norm_sub_norm_le H.reH.im ((1 / 2 : ℝ) • l.reH.im)
    rw [norm_smul, Real.norm_eq_abs, abs_of_pos (by norm_num : (0 : ℝ) < 1 / 2)] at h1
    linarith
  have r5 : |H.reH.re| ≤ 4 := by
    have h1 := abs_sub_abs_le_abs_sub H.reH.re (1 / 2 * l.reH.re)
    rw [abs_mul, abs_of_pos (by norm_num : (0 : ℝ) < 1 / 2)] at h1
    linarith
  obtain ⟨x1, x2⟩ := C138_exp hw hsc he hε H H1 r5 (by linarith)
  refine ⟨x1, ?_⟩
  have x3 : ‖H.exp.reH - NormedSpace.exp H.reH‖ ≤ Real.exp H.reH.re * (6 * ε + 58 * f.u) := by
    refine x2.trans (mul_le_mul_of_nonneg_left ?_ (Real.exp_pos _).le)
    have := mul_le_mul_of_nonneg_right (show 16 * ‖H.reH.im‖ + 28 ≤ 58 by linarith) hu0.le
    linarith
  have nE : ‖NormedSpace.exp H.reH‖ = Real.exp H.reH.re := by
    rw [Quaternion.norm_exp, ← Real.exp_eq_exp_ℝ, Real.norm_eq_abs, abs_of_pos (Real.exp_pos _)]
  have y1 := sqrt_real nE (by linarith) x3
  have dbl : NormedSpace.exp H.reH * NormedSpace.exp H.reH = Real.exp (2 * H.reH.re) • NormedSpace.exp ((2 : ℝ) • H.reH.im) := by
    let +nondep : NormedAlgebra ℚ ℍ[ℝ] := .restrictScalars ℚ ℝ ℍ[ℝ]
    rw [← NormedSpace.exp_add_of_commute (Commute.refl _), exp_split]
    have e1 : (H.reH + H.reH).re = 2 * H.reH.re := by rw [re_add]; ring
    have e2 : (H.reH + H.reH).im = (2 : ℝ) • H.reH.im := by rw [two_smul]; ext <;> simp
    rw [e1, e2]
  have sq_e : Real.exp H.reH.re ^ 2 = Real.exp (2 * H.reH.re) := by rw [← Real.exp_nat_mul]; norm_num
  rw [sq_e, dbl] at y1
  have e2h : |Real.exp (2 * H.reH.re) - Real.exp l.reH.re| ≤ Real.exp l.reH.re * (12 * f.u) := by
    have h0 : |2 * H.reH.re - l.reH.re| ≤ 6 * f.u := by
      rw [show 2 * H.reH.re - l.reH.re = 2 * (H.reH.re - 1 / 2 * l.reH.re) by ring, abs_mul, abs_of_pos (by norm_num : (0 : ℝ) < 2)]
      linarith
    have h1 := Real.abs_exp_sub_one_le (x := 2 * H.reH.re - l.reH.re) (by linarith)
    have h2 : Real.exp (2 * H.reH.re) - Real.exp l.reH.re = Real.exp l.reH.re * (Real.exp (2 * H.reH.re - l.reH.re) - 1) := by
      rw [Real.exp_sub, mul_sub, mul_one, mul_div_cancel₀ _ (Real.exp_pos _).ne']
    rw [h2, abs_mul, abs_of_pos (Real.exp_pos _)]
    exact mul_le_mul_of_nonneg_left (by linarith) (Real.exp_pos _).le
  have v1 := exp_lip (v := (2 : ℝ) • H.reH.im) (w := l.reH.im) (by rw [re_smul, re_im, smul_zero]) (re_im _)
  have v2 : ‖(2 : ℝ) • H.reH.im - l.reH.im‖ ≤ 6 * f.u := by
    have e : (2 : ℝ) • H.reH.im - l.reH.im = (2 : ℝ) • (H.reH.im - (1 / 2 : ℝ) • l.reH.im) := by
      rw [smul_sub, smul_smul]; norm_num
    rw [e, norm_smul, Real.norm_eq_abs, abs_of_pos (by norm_num : (0 : ℝ) < 2)]
    linarith
  have nV : ‖NormedSpace.exp ((2 : ℝ) • H.reH.im)‖ = 1 := norm_exp_pure (by rw [re_smul, re_im, smul_zero])
  rw [exp_split l.reH]
  have E0 := Real.exp_pos l.reH.re
  generalize Real.exp l.reH.re = E at *
  generalize Real.exp (2 * H.reH.re) = E2 at *
  generalize NormedSpace.exp ((2 : ℝ) • H.reH.im) = V at *
  generalize NormedSpace.exp l.reH.im = W at *
  have t1 := norm_sub_le_norm_sub_add_norm_sub (H.exp.reH * H.exp.reH) (E2 • V) (E • W)
  have t2 : ‖E2 • V - E • W‖ ≤ E * (18 * f.u) := by
    have e : E2 • V - E • W = (E2 - E) • V + E • (V - W) := by rw [sub_smul, smul_sub]; abel
    rw [e]
    refine (norm_add_le _ _).trans ?_
    rw [norm_smul, norm_smul, nV, mul_one, Real.norm_eq_abs, Real.norm_eq_abs, abs_of_pos E0]
    have := mul_le_mul_of_nonneg_left (v1.trans v2) E0.le
    linarith
  have t3 : E2 ≤ 105 / 100 * E := by
    have h1 := (_root_.abs_le.1 e2h).2
    have h2 := mul_le_mul_of_nonneg_left hu E0.le
    linarith
  have t4 := mul_le_mul_of_nonneg_left t3 (show 0 ≤ 3 * (6 * ε + 58 * f.u) by positivity)
  have t5 : 0 ≤ E * ε := by positivity
  have t6 : 0 ≤ E * f.u := by positivity
  nlinarith

/-- **C139.** The computed square root of an unflagged quaternion, squared, is the quaternion up to `29ε + 356u` relative to its norm. -/
theorem C139_sqrt [L : Libm f] (hw : f.Wide) {ε : ℝ} (hsc : SinCosAcc f ε) (he : ExpAcc f ε) (hA : Atan2Acc f ε) (hB : Atan2Neg f ε)
    (hl : LnAcc f ε) (hε : ε ≤ 1 / 8) (q : Quat (Flt f)) (hq : ∀ i, (q.comp i).IsFin) (hflag : q.normalized = false)
    (h1 : 1 / 16 ≤ ‖q.reH‖) (h8 : ‖q.reH‖ ≤ 8) :
    (∀ i, (q.sqrt.comp i).IsFin) ∧ ‖q.sqrt.reH * q.sqrt.reH - q.reH‖ ≤ ‖q.reH‖ * (29 * ε + 356 * f.u) := by
  obtain ⟨c1, c2, c3, c4, c5⟩ := C139_ln hw hA hB hl hε q hq hflag h1 h8
  obtain ⟨d1, d2⟩ := sqrt_core hw hsc he hε q.ln c1 c2 c3
  refine ⟨d1, ?_⟩
  have hu0 := f.u_pos
  have ε0 : 0 ≤ ε := (abs_nonneg _).trans (hA 1 1 trivial trivial (Or.inl (by rw [toReal_one]; norm_num))).2
  have h2 := norm_sub_le_norm_sub_add_norm_sub (q.sqrt.reH * q.sqrt.reH) (NormedSpace.exp q.ln.reH) q.reH
  have h3 := mul_le_mul_of_nonneg_right c4 (show 0 ≤ 19 * ε + 205 * f.u by positivity)
  have h4 : 0 ≤ ‖q.reH‖ * ε := by positivity
  have h5 : 0 ≤ ‖q.reH‖ * f.u := by positivity
  have d3 : ‖q.sqrt.reH * q.sqrt.reH - NormedSpace.exp q.ln.reH‖ ≤ Real.exp q.ln.reH.re * (19 * ε + 205 * f.u) := d2
  nlinarith

/-- **C139.** The same for a quaternion flagged as normalised whose norm is one up to `δ`: logarithm and exponential, and square root. -/
theorem C139_unit [L : Libm f] (hw : f.Wide) {ε δ : ℝ} (hsc : SinCosAcc f ε) (he : ExpAcc f ε) (hA : Atan2Acc f ε) (hB : Atan2Neg f ε)
    (hl : LnAcc f ε) (hε : ε ≤ 1 / 8) (q : Quat (Flt f)) (hq : ∀ i, (q.comp i).IsFin) (hflag : q.normalized = true) (hδ : δ ≤ 1 / 8)
    (hR : |‖q.reH‖ - 1| ≤ δ) :
    ‖q.ln.exp.reH - q.reH‖ ≤ 11 * ε + 190 * f.u + δ ∧ ‖q.sqrt.reH * q.sqrt.reH - q.reH‖ ≤ 27 * ε + 340 * f.u + δ := by
  obtain ⟨c1, c2, c3, c4, c5⟩ := C139_ln_unit hw hA hB hl hε q hq hflag hδ hR
  obtain ⟨-, d2⟩ := sqrt_core hw hsc he hε q.ln c1 c2 c3
  obtain ⟨-, d3⟩ := exp_core hw hsc he hε q.ln c1 c2 c3
  have hu0 := f.u_pos
  have ε0 : 0 ≤ ε := (abs_nonneg _).trans (hA 1 1 trivial trivial (Or.inl (by rw [toReal_one]; norm_num))).2
  have h2 := norm_sub_le_norm_sub_add_norm_sub (q.sqrt.reH * q.sqrt.reH) (NormedSpace.exp q.ln.reH) q.reH
  have h3 := norm_sub_le_norm_sub_add_norm_sub q.ln.exp.reH (NormedSpace.exp q.ln.reH) q.reH
  have h4 := mul_le_mul_of_nonneg_right c4 (show 0 ≤ 19 * ε + 205 * f.u by positivity)
  have h5 := mul_le_mul_of_nonneg_right c4 (show 0 ≤ 6 * ε + 86 * f.u by positivity)
  have d4 : ‖q.sqrt.reH * q.sqrt.reH - NormedSpace.exp q.ln.reH‖ ≤ Real.exp q.ln.reH.re * (19 * ε + 205 * f.u) := d2
  constructor <;> linarith

/-- A correctly rounded library satisfies all hypotheses with `ε = 4u`. -/
theorem correctLibm_all (hp : 8 ≤ f.p) : @SinCosAcc f (correctLibm f) (4 * f.u) ∧ @ExpAcc f (correctLibm f) (4 * f.u) ∧
    @Atan2Acc f (correctLibm f) (4 * f.u) ∧ @Atan2Neg f (correctLibm f) (4 * f.u) ∧ @LnAcc f (correctLibm f) (4 * f.u) := by
  let := correctLibm f
  have hu := f.u_pos
  obtain ⟨h1, h2⟩ := correctLibm_sin_cos hp
  have h3 := correctLibm_exp hp
  refine ⟨⟨fun x hx => ⟨(h1 x hx).1, (h1 x hx).2.trans (by linarith)⟩, fun x hx => ⟨(h2 x hx).1, (h2 x hx).2.trans (by linarith)⟩⟩,
    fun x hx hx4 => ⟨(h3 x hx hx4).1, (h3 x hx hx4).2.trans (mul_le_mul_of_nonneg_right (by linarith) (Real.exp_pos _).le)⟩,
    correctLibm_atan2 hp, fun y x _ _ hy hx => ?_, fun x _ h32 hx32 => ?_⟩
  · have e : Complex.arg ⟨x.toReal, y.toReal⟩ = Real.pi := by rw [hy]; exact Complex.arg_ofReal_of_neg hx
    have n := Near.of_real (f := f) (r := Complex.arg ⟨x.toReal, y.toReal⟩) (B := 3.15) hp
      ((Complex.abs_arg_le_pi _).trans Real.pi_lt_d2.le) (by norm_num)
    refine ⟨n.fin, ?_⟩
    have h4 := n.err
    nth_rewrite 2 [e] at h4
    have h5 := abs_abs_sub_abs_le_abs_sub (ofReal f false (Complex.arg ⟨x.toReal, y.toReal⟩)).toReal Real.pi
    rw [abs_of_pos Real.pi_pos] at h5
    refine h5.trans (h4.trans ?_)
    linarith
  · have hlog : |Real.log x.toReal| ≤ 35 / 10 := by
      have h4 : Real.log 32 ≤ 35 / 10 := by
        have : Real.log 32 = 5 * Real.log 2 := by rw [show (32 : ℝ) = 2 ^ 5 by norm_num, Real.log_pow]; norm_num
        rw [this]; linarith [Real.log_two_lt_d9]
      rw [_root_.abs_le]
      constructor
      · have := Real.log_le_log (by norm_num) h32
        rw [one_div, Real.log_inv] at this
        linarith
      · have := Real.log_le_log (by linarith) hx32
        linarith
    have n := Near.of_real (f := f) hp hlog (by norm_num)
    exact ⟨n.fin, n.err.trans (by linarith)⟩

/-- The quaternion `1 + i + j + k` in `f64` with a correctly rounded library: the square of the computed root. -/
example : let := correctLibm Fmt.f64
    let q : Quat (Flt Fmt.f64) := ⟨1, ⟨fun _ => 1⟩, false⟩
    ‖q.sqrt.reH * q.sqrt.reH - q.reH‖ ≤ 944 * Fmt.f64.u := by
  let := correctLibm Fmt.f64
  have hu := Fmt.f64.u_pos
  have hu2 := Fmt.u_le_of_p Fmt.f64_wide.p
  obtain ⟨q, hq⟩ : ∃ q : Quat (Flt Fmt.f64), q = ⟨1, ⟨fun _ => 1⟩, false⟩ := ⟨_, rfl⟩
  have e : ‖q.reH‖ = 2 := by
    rw [← sq_eq_sq₀ (norm_nonneg _) (by norm_num), sq, ← Quaternion.normSq_eq_norm_mul_self, Quaternion.normSq_def', hq]
    change (1 : Flt Fmt.f64).toReal ^ 2 + (1 : Flt Fmt.f64).toReal ^ 2 + (1 : Flt Fmt.f64).toReal ^ 2 + (1 : Flt Fmt.f64).toReal ^ 2 = _
    rw [toReal_one]; norm_num
  have fin : ∀ i, (q.comp i).IsFin := by
    intro i; rw [hq]; fin_cases i <;> trivial
  obtain ⟨h1, h2, h3, h4, h5⟩ := correctLibm_all (f := Fmt.f64) Fmt.f64_wide.p
  have hu3 : 4 * Fmt.f64.u ≤ 1 / 8 := by linarith
  obtain ⟨-, h⟩ := C139_sqrt Fmt.f64_wide h1 h2 h3 h4 h5 hu3 q fin (by rw [hq]) (by rw [e]; norm_num) (by rw [e]; norm_num)
  rw [e, hq] at h
  refine h.trans ?_
  linarith

/-- `-1`, flagged as normalised, with no error in its norm: `sqrt` is a square root up to rounding. -/
example : let := correctLibm Fmt.f32
    let q : Quat (Flt Fmt.f32) := ⟨-1, ⟨fun _ => 0⟩, true⟩
    ‖q.sqrt.reH * q.sqrt.reH - q.reH‖ ≤ 448 * Fmt.f32.u := by
  let := correctLibm Fmt.f32
  have hu := Fmt.f32.u_pos
  have hu2 := Fmt.u_le_of_p Fmt.f32_wide.p
  obtain ⟨q, hq⟩ : ∃ q : Quat (Flt Fmt.f32), q = ⟨-1, ⟨fun _ => 0⟩, true⟩ := ⟨_, rfl⟩
  have e : ‖q.reH‖ = 1 := by
    rw [← sq_eq_sq₀ (norm_nonneg _) (by norm_num), sq, ← Quaternion.normSq_eq_norm_mul_self, Quaternion.normSq_def', hq]
    change (-1 : Flt Fmt.f32).toReal ^ 2 + (0 : Flt Fmt.f32).toReal ^ 2 + (0 : Flt Fmt.f32).toReal ^ 2 + (0 : Flt Fmt.f32).toReal ^ 2 = _
    rw [toReal_neg, toReal_one, toReal_zero]; norm_num
  have fin : ∀ i, (q.comp i).IsFin := by
    intro i; rw [hq]; fin_cases i <;> trivial
  obtain ⟨h1, h2, h3, h4, h5⟩ := correctLibm_all (f := Fmt.f32) Fmt.f32_wide.p
  have hu3 : 4 * Fmt.f32.u ≤ 1 / 8 := by linarith
  obtain ⟨-, h⟩ := C139_unit Fmt.f32_wide h1 h2 h3 h4 h5 hu3 q fin (by rw [hq]) (δ := 0) (by norm_num) (by rw [e]; norm_num)
  rw [hq] at h
  refine h.trans ?_
  linarith

end StaticMath

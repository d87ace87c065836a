import Verif.Props.IeeeQuatExp

/-!
# C139: `normalize_a` and `normalize_q` in floating point
-/

namespace StaticMath
open Flt Quaternion

variable {f : Fmt}

private def qE : Quat (Ex (Fin 4)) := ⟨.var 0, ⟨![.var 1, .var 2, .var 3]⟩, false⟩

private theorem dot_self_err (q : Quat (Flt f)) (h : (q.dot q).IsFin) :
    |(q.dot q).toReal - ‖q.reH‖ ^ 2| ≤ ((1 + f.u) ^ 4 - 1) * ‖q.reH‖ ^ 2 + (1 + f.u) ^ 4 * (f.eta * 4) := by
  have hM : ‖q.reH‖ ^ 2 = q.reH.re * q.reH.re + (q.reH.imI * q.reH.imI + q.reH.imJ * q.reH.imJ + q.reH.imK * q.reH.imK) := by
    rw [sq ‖q.reH‖, ← Quaternion.normSq_eq_norm_mul_self, Quaternion.normSq_def']; ring
  have a0 (η : ℝ) : Ex.absE η (Ex.vals q.comp) (qE.dot qE) = (|q.reH.re| * |q.reH.re| + η) +
      ((|q.reH.imI| * |q.reH.imI| + η) + (|q.reH.imJ| * |q.reH.imJ| + η) + (|q.reH.imK| * |q.reH.imK| + η)) := rfl
  have a1 : Ex.evalR (Ex.vals q.comp) (qE.dot qE) = q.reH.re * q.reH.re +
      (q.reH.imI * q.reH.imI + q.reH.imJ * q.reH.imJ + q.reH.imK * q.reH.imK) := rfl
  have a2 : (qE.dot qE).depth = 4 := by decide +kernel
  have key := Ex.err_of_le (x := q.comp) (qE.dot qE) a2 (S := ‖q.reH‖ ^ 2) (U := 4)
    (by rw [a0, hM]; simp only [abs_mul_abs_self]; linarith) (by rw [a0, a0]; linarith) h
  rw [a1, ← hM] at key
  exact key

private theorem norm_real {D M u a : ℝ} (hu0 : 0 < u) (hu : u ≤ 1 / 256) (hM : 0 < M) (hD : |D - M ^ 2| ≤ 43 / 10 * u * M ^ 2)
    (ha : 0 ≤ D → |a - √D| ≤ u * √D) : 0 < D ∧ |a - M| ≤ 7 / 2 * u * M := by
  obtain ⟨h1, h2⟩ := abs_le.1 hD
  have uM : u * M ^ 2 ≤ 1 / 256 * M ^ 2 := mul_le_mul_of_nonneg_right hu (by positivity)
  have D0 : 0 < D := by nlinarith [sq_nonneg M, pow_pos hM 2]
  refine ⟨D0, ?_⟩
  have h3 := ha D0.le
  have t0 := Real.sqrt_nonneg D
  have t2 := Real.sq_sqrt D0.le
  generalize √D = t at *
  subst t2
  have uu : u ^ 2 ≤ 1 / 256 * u := by rw [sq]; exact mul_le_mul_of_nonneg_right hu hu0.le
  have h4 : t ≤ M * (1 + 43 / 20 * u) := by
    refine abs_le_of_sq_le_sq' ?_ (by positivity) |>.2
    have : 0 ≤ (M * (43 / 20 * u)) ^ 2 := by positivity
    nlinarith
  have h5 : M * (1 - 22 / 10 * u) ≤ t := by
    refine abs_le_of_sq_le_sq' ?_ t0 |>.2
    have e : (M * (1 - 22 / 10 * u)) ^ 2 = M ^ 2 * (1 - 44 / 10 * u + (22 / 10) ^ 2 * u ^ 2) := by ring
    have : M ^ 2 * ((22 / 10) ^ 2 * u ^ 2) ≤ M ^ 2 * ((22 / 10) ^ 2 * (1 / 256 * u)) := by gcongr
    have h6 : 0 ≤ M ^ 2 * u := by positivity
    nlinarith
  obtain ⟨h6, h7⟩ := abs_le.1 h3
  have h8 := mul_le_mul_of_nonneg_left h4 hu0.le
  have h9 : u * (M * u) ≤ 1 / 256 * (M * u) := mul_le_mul_of_nonneg_right hu (by positivity)
  have h10 : 0 ≤ M * u := by positivity
  rw [abs_le]
  constructor <;> nlinarith

/-- The computed norm of a quaternion has relative error at most `7/2 u`, unless the squares overflow or the
norm is so small that they underflow. -/
theorem Quat.norm2_near [Libm f] (hp : 8 ≤ f.p) (q : Quat (Flt f)) (h : q.norm2.IsFin) (h0 : 0 < ‖q.reH‖) (hη : 16 * f.eta ≤ f.u * ‖q.reH‖ ^ 2) :
    |q.norm2.toReal - ‖q.reH‖| ≤ 7 / 2 * f.u * ‖q.reH‖ := by
  have hd : (q.dot q).IsFin := isFin_of_sqrt h
  have hu0 := f.u_pos
  have hu := Fmt.u_le_of_p hp
  obtain ⟨k1, -, -⟩ := Fmt.kappa456 hp
  have key := dot_self_err q hd
  refine (norm_real hu0 hu h0 (D := (q.dot q).toReal) ?_ fun hD => (sqrt_rel hd hD).2.1).2
  refine key.trans ?_
  have h1 := mul_le_mul_of_nonneg_right k1 (sq_nonneg ‖q.reH‖)
  have h2 : (1 + f.u) ^ 4 * (f.eta * 4) ≤ 102 / 100 * (f.eta * 4) := mul_le_mul_of_nonneg_right (by linarith) (by have := f.eta_pos; linarith)
  have h3 : 0 ≤ f.u * ‖q.reH‖ ^ 2 := by positivity
  linarith

private theorem div_real {x a M u η X : ℝ} (hu0 : 0 < u) (hu : u ≤ 1 / 256) (hM : 0 < M) (ha : |a - M| ≤ 7 / 2 * u * M) (hx : |x| ≤ M) :
    0 < a ∧ |x / a| ≤ 2 ∧ (|X - x / a| ≤ u * |x / a| + η → |X - M⁻¹ * x| ≤ 47 / 10 * u * |M⁻¹ * x| + η) := by
  obtain ⟨h1, h2⟩ := abs_le.1 ha
  have uM : u * M ≤ 1 / 256 * M := mul_le_mul_of_nonneg_right hu hM.le
  have a0 : 98 / 100 * M ≤ a := by linarith
  have ap : 0 < a := by linarith
  have e1 : x / a - M⁻¹ * x = M⁻¹ * x * ((M - a) / a) := by field_simp
  have e2 : |(M - a) / a| ≤ 36 / 10 * u := by
    rw [abs_div, abs_sub_comm, abs_of_pos ap, div_le_iff₀ ap]
    have := mul_le_mul_of_nonneg_left a0 hu0.le
    nlinarith
  have e3 : |x / a - M⁻¹ * x| ≤ 36 / 10 * u * |M⁻¹ * x| := by
    rw [e1, abs_mul, mul_comm]
    exact mul_le_mul_of_nonneg_right e2 (abs_nonneg _)
  have e4 : |M⁻¹ * x| ≤ 1 := by
    rw [abs_mul, abs_of_pos (inv_pos.2 hM), inv_mul_eq_div, div_le_one hM]; exact hx
  clear e1 e2
  generalize M⁻¹ * x = y at *
  generalize x / a = z at *
  have e5 := abs_sub_abs_le_abs_sub z y
  have e6 : u * |y| ≤ 1 / 256 * |y| := mul_le_mul_of_nonneg_right hu (abs_nonneg _)
  have y0 := abs_nonneg y
  have uy0 : 0 ≤ u * |y| := by positivity
  refine ⟨ap, by linarith, fun hX => ?_⟩
  have e7 := abs_sub_le X z y
  have e8 : u * |z| ≤ u * (102 / 100 * |y|) := mul_le_mul_of_nonneg_left (by linarith) hu0.le
  linarith

theorem norm_comps {x z : ℍ[ℝ]} {c η : ℝ} (hc : 0 ≤ c) (hη : 0 ≤ η) (h0 : |x.re| ≤ c * |z.re| + η) (h1 : |x.imI| ≤ c * |z.imI| + η)
    (h2 : |x.imJ| ≤ c * |z.imJ| + η) (h3 : |x.imK| ≤ c * |z.imK| + η) : ‖x‖ ≤ c * ‖z‖ + 2 * η := by
  have n (y : ℍ[ℝ]) : ‖y‖ ^ 2 = |y.re| ^ 2 + |y.imI| ^ 2 + |y.imJ| ^ 2 + |y.imK| ^ 2 := by
    rw [sq ‖y‖, ← Quaternion.normSq_eq_norm_mul_self, Quaternion.normSq_def', sq_abs, sq_abs, sq_abs, sq_abs]
  refine abs_le_of_sq_le_sq' ?_ (by positivity) |>.2
  have s1 : |z.re| + |z.imI| + |z.imJ| + |z.imK| ≤ 2 * ‖z‖ := by
    refine abs_le_of_sq_le_sq' ?_ (by positivity) |>.2
    rw [mul_pow, n z]
    nlinarith [sq_nonneg (|z.re| - |z.imI|), sq_nonneg (|z.re| - |z.imJ|), sq_nonneg (|z.re| - |z.imK|),
      sq_nonneg (|z.imI| - |z.imJ|), sq_nonneg (|z.imI| - |z.imK|), sq_nonneg (|z.imJ| - |z.imK|)]
  have k0 := pow_le_pow_left₀ (abs_nonneg _) h0 2
  have k1 := pow_le_pow_left₀ (abs_nonneg _) h1 2
  have k2 := pow_le_pow_left₀ (abs_nonneg _) h2 2
  have k3 := pow_le_pow_left₀ (abs_nonneg _) h3 2
  have s2 := mul_le_mul_of_nonneg_left s1 (mul_nonneg hc hη)
  have e : (c * ‖z‖ + 2 * η) ^ 2 = c ^ 2 * (|z.re| ^ 2 + |z.imI| ^ 2 + |z.imJ| ^ 2 + |z.imK| ^ 2) + 4 * (c * η) * ‖z‖ + 4 * η ^ 2 := by
    rw [← n z]; ring
  rw [n x, e]
  linarith

/-- The quotient of a quaternion by a number close to its norm. -/
theorem Quat.sdiv_near_norm (hp : 8 ≤ f.p) (q : Quat (Flt f)) (hq : ∀ i, (q.comp i).IsFin) (h0 : 0 < ‖q.reH‖) {a : Flt f} (ha : a.IsFin)
    (h : |a.toReal - ‖q.reH‖| ≤ 7 / 2 * f.u * ‖q.reH‖) :
    (∀ i, ((q.sdiv a).comp i).IsFin) ∧ ‖(q.sdiv a).reH - ‖q.reH‖⁻¹ • q.reH‖ ≤ 5 * f.u := by
  have hu0 := f.u_pos
  have hu := Fmt.u_le_of_p hp
  have hη := Fmt.eta_small hp
  have hη0 := f.eta_pos
  have key (i : Fin 4) : (q.comp i / a).IsFin ∧
      |(q.comp i / a).toReal - ‖q.reH‖⁻¹ * (q.comp i).toReal| ≤ 47 / 10 * f.u * |‖q.reH‖⁻¹ * (q.comp i).toReal| + f.eta := by
    obtain ⟨k1, k2, k3⟩ := div_real (X := (q.comp i / a).toReal) (η := f.eta) hu0 hu h0 h (q.comp_le_reH i)
    have fin := div_isFin (hq i) ha k1.ne' (Fmt.range_of_p hp (by linarith))
    exact ⟨fin, k3 (div_err ha fin).2⟩
  constructor
  · intro i
    have := (key i).1
    fin_cases i <;> exact this
  have hz : ‖‖q.reH‖⁻¹ • q.reH‖ = 1 := by
    rw [norm_smul, norm_inv, norm_norm, inv_mul_cancel₀ h0.ne']
  have := norm_comps (x := (q.sdiv a).reH - ‖q.reH‖⁻¹ • q.reH) (z := ‖q.reH‖⁻¹ • q.reH) (c := 47 / 10 * f.u) (η := f.eta)
    (by positivity) hη0.le (key 0).2 (key 1).2 (key 2).2 (key 3).2
  rw [hz] at this
  linarith

/-- **C139.** `normalize_a` of an unflagged quaternion: the direction is right up to `5u` and the norm up to `7/2 u`. -/
theorem C139_normalize_a [Libm f] (hp : 8 ≤ f.p) (q : Quat (Flt f)) (hq : ∀ i, (q.comp i).IsFin) (hflag : q.normalized = false)
    (h : q.norm2.IsFin) (h0 : 0 < ‖q.reH‖) (hη : 16 * f.eta ≤ f.u * ‖q.reH‖ ^ 2) :
    (∀ i, (q.normalize_a.1.comp i).IsFin) ∧ q.normalize_a.2.IsFin ∧ q.normalize_a.1.normalized = true ∧
    ‖q.normalize_a.1.reH - ‖q.reH‖⁻¹ • q.reH‖ ≤ 5 * f.u ∧ |q.normalize_a.2.toReal - ‖q.reH‖| ≤ 7 / 2 * f.u * ‖q.reH‖ := by
  have h1 := Quat.norm2_near hp q h h0 hη
  obtain ⟨h2, h3⟩ := Quat.sdiv_near_norm hp q hq h0 h h1
  have e : q.normalize_a = ({ q.sdiv q.norm2 with normalized := true }, q.norm2) := by
    unfold Quat.normalize_a; rw [hflag]; rfl
  rw [e]
  exact ⟨h2, h, rfl, h3, h1⟩

/-- **C139.** `normalize_q` of a quaternion whose squared norm is at least `3u` returns nearly the unit quaternion in the
same direction, whatever its flag says. -/
theorem C139_normalize_q [Libm f] (hp : 8 ≤ f.p) (q : Quat (Flt f)) (hq : ∀ i, (q.comp i).IsFin)
    (h : q.norm2.IsFin) (h0 : 3 * f.u ≤ ‖q.reH‖ ^ 2) (hη : 16 * f.eta ≤ f.u * ‖q.reH‖ ^ 2) :
    (∀ i, (q.normalize_q.comp i).IsFin) ∧ q.normalize_q.normalized = true ∧ ‖q.normalize_q.reH - ‖q.reH‖⁻¹ • q.reH‖ ≤ 5 * f.u := by
  have hu0 := f.u_pos
  have hu := Fmt.u_le_of_p hp
  have hM : 0 < ‖q.reH‖ := by
    rcases (norm_nonneg q.reH).eq_or_lt with e | e
    · rw [← e] at h0; norm_num at h0; linarith
    · exact e
  have hd : (q.dot q).IsFin := isFin_of_sqrt h
  have h1 := Quat.norm2_near hp q h hM hη
  obtain ⟨h2, h3⟩ := Quat.sdiv_near_norm hp q hq hM h h1
  have key := dot_self_err q hd
  obtain ⟨k1, -, -⟩ := Fmt.kappa456 hp
  have lt : ROrd.lt (epsilon f) (q.dot q) = true := by
    rw [lt_iff (a := epsilon f) (show (epsilon f).IsFin from trivial) hd]
    have ee : (epsilon f).toReal = 2 * f.u := by
      change (2 : ℝ) ^ (1 - (f.p : ℤ)) = 2 * (2 : ℝ) ^ (-(f.p : ℤ))
      rw [sub_eq_add_neg, zpow_add₀ (by norm_num), zpow_one]
    rw [ee]
    have h4 := (_root_.abs_le.1 key).1
    have h5 : ((1 + f.u) ^ 4 - 1) * ‖q.reH‖ ^ 2 ≤ 1 / 50 * ‖q.reH‖ ^ 2 := mul_le_mul_of_nonneg_right (by linarith) (sq_nonneg _)
    have h6 : (1 + f.u) ^ 4 * (f.eta * 4) ≤ 102 / 100 * (f.eta * 4) := mul_le_mul_of_nonneg_right (by linarith) (by have := f.eta_pos; linarith)
    have h7 := Fmt.eta_small hp
    linarith
  have e : q.normalize_q = { q.sdiv q.norm2 with normalized := true } := by
    unfold Quat.normalize_q; exact if_pos lt
  rw [e]
  exact ⟨h2, rfl, h3⟩

/-- The computed norm of a quaternion of norm between 1/16 and 8 is finite, and its square does not underflow. -/
theorem Quat.norm2_isFin [Libm f] (hw : f.Wide) (q : Quat (Flt f)) (hq : ∀ i, (q.comp i).IsFin) (h1 : 1 / 16 ≤ ‖q.reH‖) (h8 : ‖q.reH‖ ≤ 8) :
    q.norm2.IsFin ∧ 16 * f.eta ≤ f.u * ‖q.reH‖ ^ 2 := by
  have hp := hw.p
  have hu0 := f.u_pos
  have hu := Fmt.u_le_of_p hp
  have hη := Fmt.eta_small hp
  have hv : ∀ i, (q.q i).IsFin := fun i => by fin_cases i; exacts [hq 1, hq 2, hq 3]
  have hM : ‖q.reH‖ ^ 2 = q.q0.toReal ^ 2 + ((q.q 0).toReal ^ 2 + (q.q 1).toReal ^ 2 + (q.q 2).toReal ^ 2) := by
    rw [sq ‖q.reH‖, ← Quaternion.normSq_eq_norm_mul_self, Quaternion.normSq_def']
    change q.q0.toReal ^ 2 + (q.q 0).toReal ^ 2 + (q.q 1).toReal ^ 2 + (q.q 2).toReal ^ 2 = _
    ring
  have hM2 : ‖q.reH‖ ^ 2 ≤ 64 := by
    have := pow_le_pow_left₀ (norm_nonneg _) h8 2
    linarith
  have s := sq_nonneg q.q0.toReal
  have s0 := sq_nonneg (q.q 0).toReal
  have s1 := sq_nonneg (q.q 1).toReal
  have s2 := sq_nonneg (q.q 2).toReal
  obtain ⟨N, hN⟩ : ∃ N, N = √((q.q 0).toReal ^ 2 + (q.q 1).toReal ^ 2 + (q.q 2).toReal ^ 2) := ⟨_, rfl⟩
  have hN0 : 0 ≤ N := by rw [hN]; exact Real.sqrt_nonneg _
  have hN2 : N ^ 2 = (q.q 0).toReal ^ 2 + (q.q 1).toReal ^ 2 + (q.q 2).toReal ^ 2 := by rw [hN, Real.sq_sqrt (by linarith)]
  have hN8 : N ≤ 8 := abs_le_of_sq_le_sq' (by linarith) (by norm_num) |>.2
  obtain ⟨n1, -, -⟩ := norm2_V3_near hp hw.eta q.q hv hN0 hN2 (by linarith)
  have d1 : (V3.dot q.q q.q).IsFin := isFin_of_sqrt n1
  have d2 := (C93_dot_V3 q.q q.q d1).1
  rw [Fin.sum_univ_three, Fin.sum_univ_three, abs_mul_self, abs_mul_self, abs_mul_self, ← sq, ← sq, ← sq, ← hN2] at d2
  obtain ⟨k1, -, -⟩ := Fmt.kappa456 hp
  have k2 : (1 + f.u) ^ 3 ≤ (1 + f.u) ^ 4 := pow_le_pow_right₀ (by linarith) (by norm_num)
  have d3 : |(V3.dot q.q q.q).toReal| ≤ 70 := by
    have h1 := abs_sub_abs_le_abs_sub (V3.dot q.q q.q).toReal (N ^ 2)
    rw [abs_of_nonneg (sq_nonneg N)] at h1
    have h2 : ((1 + f.u) ^ 3 - 1) * N ^ 2 ≤ 2 / 100 * 64 := mul_le_mul (by linarith) (by linarith) (sq_nonneg _) (by norm_num)
    have h3 : (1 + f.u) ^ 3 * (3 * f.eta) ≤ 2 * (3 * f.eta) := mul_le_mul_of_nonneg_right (by linarith) (by have := f.eta_pos; linarith)
    linarith
  have m1 : (q.q0 * q.q0).IsFin := mul_isFin (hq 0) (hq 0) (Fmt.range_of_p hp (by rw [abs_mul_self, ← sq]; linarith))
  have m2 : |(q.q0 * q.q0).toReal| ≤ 70 := by
    have h1 := mul_err m1
    rw [abs_mul_self, ← sq] at h1
    have h2 := abs_sub_abs_le_abs_sub (q.q0 * q.q0).toReal (q.q0.toReal ^ 2)
    rw [abs_of_nonneg s] at h2
    have h3 : f.u * q.q0.toReal ^ 2 ≤ 1 / 256 * 64 := mul_le_mul hu (by linarith) s (by norm_num)
    linarith
  have hd : (q.dot q).IsFin := by
    refine add_isFin m1 d1 (Fmt.range_of_p hp ?_)
    have := abs_add_le (q.q0 * q.q0).toReal (V3.dot q.q q.q).toReal
    linarith
  have key := (_root_.abs_le.1 (dot_self_err q hd)).1
  have M1 : 1 / 256 ≤ ‖q.reH‖ ^ 2 := by
    have := pow_le_pow_left₀ (by norm_num) h1 2
    linarith
  have η2 : f.eta ≤ f.u * (1 / 256) ^ 3 := by
    refine hw.eta.trans ?_
    rw [pow_succ, mul_comm]
    exact mul_le_mul_of_nonneg_left (pow_le_pow_left₀ hu0.le hu 3) hu0.le
  have g1 : 16 * f.eta ≤ f.u * ‖q.reH‖ ^ 2 := by
    have := mul_le_mul_of_nonneg_left M1 hu0.le
    linarith
  refine ⟨(sqrt_rel hd ?_).1, g1⟩
  have h2 : ((1 + f.u) ^ 4 - 1) * ‖q.reH‖ ^ 2 ≤ 1 / 2 * ‖q.reH‖ ^ 2 := mul_le_mul_of_nonneg_right (by linarith) (sq_nonneg _)
  have h3 : (1 + f.u) ^ 4 * (f.eta * 4) ≤ 2 * (f.eta * 4) := mul_le_mul_of_nonneg_right (by linarith) (by have := f.eta_pos; linarith)
  linarith

end StaticMath

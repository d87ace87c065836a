import Mathlib.Analysis.SpecialFunctions.Trigonometric.DerivHyp
import Verif.Props.IeeeQuatPow

/-!
# C158: sine, cosine and argument direction of quaternions in floating point
-/

namespace StaticMath
open Flt Quaternion

variable {f : Fmt}

private theorem u16 (hp : 16 ≤ f.p) : f.u ≤ 1 / 65536 := by
  have : (2 : ℝ) ^ (-(f.p : ℤ)) ≤ (2 : ℝ) ^ (-(16 : ℤ)) := zpow_le_zpow_right₀ (by norm_num) (by omega)
  have e : (2 : ℝ) ^ (-(16 : ℤ)) = 1 / 65536 := by norm_num
  rw [← e]; exact this

private theorem range16 (hp : 16 ≤ f.p) (hw : f.Wide) {x : ℝ} (hx : x ≤ 131072) : (1 + f.u) * x < (2 : ℝ) ^ (f.emax + 1) := by
  have h1 : (2 : ℝ) ^ (25 : ℤ) ≤ (2 : ℝ) ^ (f.emax + 1) :=
    zpow_le_zpow_right₀ (by norm_num) (by have := hw.high; omega)
  have h2 : (2 : ℝ) ^ (25 : ℤ) = 33554432 := by norm_num
  have hu := u16 hp
  have hu0 := f.u_pos
  have : (1 + f.u) * x ≤ (1 + f.u) * 131072 := mul_le_mul_of_nonneg_left hx (by linarith)
  linarith

/-- **C158.** The computed sum and difference of two quaternions have relative error at most `u`. -/
theorem C158_add_sub (x y : Quat (Flt f)) :
    ((∀ i, ((x.add y).comp i).IsFin) → ‖(x.add y).reH - (x.reH + y.reH)‖ ≤ f.u * ‖x.reH + y.reH‖) ∧
    ((∀ i, ((x.sub y).comp i).IsFin) → ‖(x.sub y).reH - (x.reH - y.reH)‖ ≤ f.u * ‖x.reH - y.reH‖) := by
  have hu0 := f.u_pos
  refine ⟨fun h => ?_, fun h => ?_⟩
  · have k (i) (a b : Flt f) (e : (x.add y).comp i = a + b) : |(a + b).toReal - (a.toReal + b.toReal)| ≤ f.u * |a.toReal + b.toReal| + 0 := by
      rw [add_zero]; exact add_rel (e ▸ h i)
    have := norm_comps (x := (x.add y).reH - (x.reH + y.reH)) (z := x.reH + y.reH) hu0.le le_rfl
      (k 0 x.q0 y.q0 rfl) (k 1 (x.q 0) (y.q 0) rfl) (k 2 (x.q 1) (y.q 1) rfl) (k 3 (x.q 2) (y.q 2) rfl)
    linarith
  · have k (i) (a b : Flt f) (e : (x.sub y).comp i = a - b) : |(a - b).toReal - (a.toReal - b.toReal)| ≤ f.u * |a.toReal - b.toReal| + 0 := by
      rw [add_zero]; exact sub_rel (e ▸ h i)
    have := norm_comps (x := (x.sub y).reH - (x.reH - y.reH)) (z := x.reH - y.reH) hu0.le le_rfl
      (k 0 x.q0 y.q0 rfl) (k 1 (x.q 0) (y.q 0) rfl) (k 2 (x.q 1) (y.q 1) rfl) (k 3 (x.q 2) (y.q 2) rfl)
    linarith

/-- **C158.** The computed quotient by a number, and the product with a number. -/
theorem C158_scale (x : Quat (Flt f)) (a : Flt f) (ha : a.IsFin) :
    ((∀ i, ((x.sdiv a).comp i).IsFin) → ‖(x.sdiv a).reH - a.toReal⁻¹ • x.reH‖ ≤ f.u * ‖a.toReal⁻¹ • x.reH‖ + 2 * f.eta) ∧
    ((∀ i, ((x.smul a).comp i).IsFin) → ‖(x.smul a).reH - a.toReal • x.reH‖ ≤ f.u * ‖a.toReal • x.reH‖ + 2 * f.eta) := by
  have hu0 := f.u_pos
  have hη0 := f.eta_pos
  refine ⟨fun h => ?_, fun h => ?_⟩
  · have k (i) (b : Flt f) (e : (x.sdiv a).comp i = b / a) : |(b / a).toReal - a.toReal⁻¹ * b.toReal| ≤ f.u * |a.toReal⁻¹ * b.toReal| + f.eta := by
      rw [inv_mul_eq_div]; exact (div_err ha (e ▸ h i)).2
    exact norm_comps (x := (x.sdiv a).reH - a.toReal⁻¹ • x.reH) (z := a.toReal⁻¹ • x.reH) hu0.le hη0.le
      (k 0 x.q0 rfl) (k 1 (x.q 0) rfl) (k 2 (x.q 1) rfl) (k 3 (x.q 2) rfl)
  · have k (i) (b : Flt f) (e : (x.smul a).comp i = b * a) : |(b * a).toReal - a.toReal * b.toReal| ≤ f.u * |a.toReal * b.toReal| + f.eta := by
      rw [mul_comm a.toReal]; exact mul_err (e ▸ h i)
    exact norm_comps (x := (x.smul a).reH - a.toReal • x.reH) (z := a.toReal • x.reH) hu0.le hη0.le
      (k 0 x.q0 rfl) (k 1 (x.q 0) rfl) (k 2 (x.q 1) rfl) (k 3 (x.q 2) rfl)

private theorem four {P : Fin 4 → Prop} (h0 : P 0) (h1 : P 1) (h2 : P 2) (h3 : P 3) : ∀ i, P i := by
  intro i; fin_cases i
  exacts [h0, h1, h2, h3]

private theorem pm_fin (hp : 16 ≤ f.p) (hw : f.Wide) (x y : Quat (Flt f)) (hx : ∀ i, (x.comp i).IsFin) (hy : ∀ i, (y.comp i).IsFin)
    (nx : ‖x.reH‖ ≤ 64) (ny : ‖y.reH‖ ≤ 64) : (∀ i, ((x.add y).comp i).IsFin) ∧ (∀ i, ((x.sub y).comp i).IsFin) := by
  have k (i : Fin 4) : (x.comp i + y.comp i).IsFin ∧ (x.comp i - y.comp i).IsFin := by
    have a := x.comp_le_reH i
    have b := y.comp_le_reH i
    refine ⟨add_isFin (hx i) (hy i) (range16 hp hw ?_), sub_isFin (hx i) (hy i) (range16 hp hw ?_)⟩
    · exact (abs_add_le _ _).trans (by linarith)
    · exact (abs_sub _ _).trans (by linarith)
  exact ⟨four (k 0).1 (k 1).1 (k 2).1 (k 3).1, four (k 0).2 (k 1).2 (k 2).2 (k 3).2⟩

theorem quat_mul_close (hp : 16 ≤ f.p) (hw : f.Wide) (x y : Quat (Flt f)) (hx : ∀ i, (x.comp i).IsFin) (hy : ∀ i, (y.comp i).IsFin)
    (nx : ‖x.reH‖ ≤ 64) (ny : ‖y.reH‖ ≤ 64) :
    (∀ i, ((x.mul y).comp i).IsFin) ∧ ‖(x.mul y).reH - x.reH * y.reH‖ ≤ 81 / 10 * f.u * (‖x.reH‖ * ‖y.reH‖) + f.u / 1000 := by
  have hu0 := f.u_pos
  have hu := u16 hp
  have hp8 : 8 ≤ f.p := by omega
  obtain ⟨kk, -, -⟩ := Fmt.kappa456 hp8
  have hη0 := f.eta_pos
  have hη : f.eta ≤ f.u / 65536 := by
    have h1 := f.eta_le_sq
    have h2 := mul_le_mul_of_nonneg_right hu hu0.le
    linarith
  have fin : ∀ i, ((x.mul y).comp i).IsFin := by
    refine (C105_no_overflow x y ⟨fun _ => 0⟩ 64 (by norm_num) (fun i => ⟨hx i, (x.comp_le_reH i).trans nx⟩)
      (fun i => ⟨hy i, (y.comp_le_reH i).trans ny⟩) (fun i => ⟨isFin_zero, by rw [toReal_zero]; norm_num⟩)).1 ?_
    have h1 := range16 hp hw (x := 131072) le_rfl
    have h2 : (1 + f.u) ^ 4 * (8 * 64 ^ 2) ≤ (1 + f.u) * 131072 := by nlinarith
    linarith
  refine ⟨fin, (C105_product x y fin).2.1.trans ?_⟩
  have n0 : 0 ≤ ‖x.reH‖ * ‖y.reH‖ := by positivity
  generalize ‖x.reH‖ * ‖y.reH‖ = N at *
  have a2 := mul_le_mul_of_nonneg_right kk n0
  have a3 : (1 + f.u) ^ 4 * (f.eta * 4) ≤ 2 * (f.u / 65536 * 4) := mul_le_mul (by linarith) (by linarith) (by positivity) (by norm_num)
  have a4 : 0 ≤ f.u * N := by positivity
  linarith

private theorem arm [L : Libm f] (hp : 16 ≤ f.p) (hw : f.Wide) {ε : ℝ} (hsc : SinCosAcc f ε) (he : ExpAcc f ε) (hε : ε ≤ 1 / 64)
    (P : Quat (Flt f)) (fin : ∀ i, (P.comp i).IsFin) (M : ℍ[ℝ]) (h : ‖P.reH - M‖ ≤ 95 * f.u) (hr : |M.re| ≤ 3) (hi : ‖M.im‖ ≤ 6) :
    (∀ i, (P.exp.comp i).IsFin) ∧ ‖P.exp.reH - NormedSpace.exp M‖ ≤ ‖NormedSpace.exp M‖ * (7 * ε + 445 * f.u) := by
  have hu0 := f.u_pos
  have hu := u16 hp
  have ε0 : 0 ≤ ε := (abs_nonneg _).trans (hsc.cos 1 trivial).2
  obtain ⟨x1, x2⟩ := exp_near (by linarith : 95 * f.u ≤ 1) h
  obtain ⟨r1, r2⟩ := re_im_le (P.reH - M)
  have r3 : |P.reH.re| ≤ 4 := by
    rw [re_sub] at r1
    have a := abs_sub_abs_le_abs_sub P.reH.re M.re
    linarith
  have r4 : ‖P.reH.im‖ ≤ 61 / 10 := by
    have e : (P.reH - M).im = P.reH.im - M.im := by ext <;> simp
    rw [e] at r2
    have a := norm_sub_norm_le P.reH.im M.im
    linarith
  obtain ⟨y1, y2⟩ := C138_exp hw hsc he (by linarith) P fin r3 (by linarith)
  refine ⟨y1, ?_⟩
  have y3 : ‖P.exp.reH - NormedSpace.exp P.reH‖ ≤ Real.exp P.reH.re * (6 * ε + 126 * f.u) := by
    refine y2.trans (mul_le_mul_of_nonneg_left ?_ (Real.exp_pos _).le)
    have := mul_le_mul_of_nonneg_right (show 16 * ‖P.reH.im‖ + 28 ≤ 126 by linarith) hu0.le
    linarith
  have n0 := norm_nonneg (NormedSpace.exp M)
  have z := norm_sub_le_norm_sub_add_norm_sub P.exp.reH (NormedSpace.exp P.reH) (NormedSpace.exp M)
  generalize ‖NormedSpace.exp M‖ = N at *
  have x3 : Real.exp P.reH.re ≤ N * (101 / 100) :=
    x2.trans (mul_le_mul_of_nonneg_left (by linarith) n0)
  have x4 := mul_le_mul_of_nonneg_right x3 (show 0 ≤ 6 * ε + 126 * f.u by positivity)
  have x5 : 0 ≤ N * ε := by positivity
  have x6 : 0 ≤ N * f.u := by positivity
  linarith

/-- The exponential on the complex line through a unit imaginary quaternion. -/
private theorem exp_line {n : ℍ[ℝ]} (hn : n.re = 0) (h1 : ‖n‖ = 1) (a b : ℝ) :
    NormedSpace.exp ((a : ℍ[ℝ]) + b • n) = Real.exp a • ((Real.cos b : ℍ[ℝ]) + Real.sin b • n) := by
  have e1 : ((a : ℍ[ℝ]) + b • n).re = a := by simp [hn]
  have e2 : ((a : ℍ[ℝ]) + b • n).im = b • n := by ext <;> simp [hn]
  rw [Quaternion.exp_eq, ← Real.exp_eq_exp_ℝ, e1, e2, norm_smul, h1, mul_one, Real.norm_eq_abs, Real.cos_abs, smul_smul]
  have e3 : Real.sin |b| / |b| * b = Real.sin b := by
    rcases lt_trichotomy b 0 with h | h | h
    · rw [abs_of_neg h, Real.sin_neg, neg_div_neg_eq, div_mul_cancel₀ _ h.ne]
    · rw [h]; simp
    · rw [abs_of_pos h, div_mul_cancel₀ _ h.ne']
  rw [e3]

private theorem sq_line {n : ℍ[ℝ]} (hn : n.re = 0) (h1 : ‖n‖ = 1) : n * n = -1 := by
  have h : star n = -n := by ext <;> simp [hn]
  have h2 : n * star n = 1 := by
    rw [Quaternion.self_mul_star, Quaternion.normSq_eq_norm_mul_self, h1]; norm_num
  rw [h, mul_neg] at h2
  rw [← h2, neg_neg]

private theorem exp3 : Real.exp 3 ≤ 21 := by
  have h := Real.exp_one_lt_d9
  have e : Real.exp 3 = Real.exp 1 ^ 3 := by rw [← Real.exp_nat_mul]; norm_num
  rw [e]
  have := pow_le_pow_left₀ (Real.exp_pos 1).le h.le 3
  exact this.trans (by norm_num)

/-- The two exponentials of the sine and cosine formulas. -/
private theorem arms [L : Libm f] (hp : 16 ≤ f.p) (hw : f.Wide) {ε : ℝ} (hsc : SinCosAcc f ε) (he : ExpAcc f ε) (hε : ε ≤ 1 / 64)
    (q l : Quat (Flt f)) (hq : ∀ i, (q.comp i).IsFin) (hl : ∀ i, (l.comp i).IsFin) {n : ℍ[ℝ]} (hn : n.re = 0) (h1 : ‖n‖ = 1) {a c : ℝ}
    (hc0 : 0 ≤ c) (hc : c ≤ 3) (ha : |a| ≤ 6) (e : q.reH = (a : ℍ[ℝ]) + c • n) (hln : ‖l.reH - n‖ ≤ 5 * f.u) :
    ((∀ i, ((q.mul l).exp.comp i).IsFin) ∧ (∀ i, ((q.mul l.neg).exp.comp i).IsFin)) ∧
    ‖(q.mul l).exp.reH - Real.exp (-c) • ((Real.cos a : ℍ[ℝ]) + Real.sin a • n)‖ ≤ Real.exp (-c) * (7 * ε + 445 * f.u) ∧
    ‖(q.mul l.neg).exp.reH - Real.exp c • ((Real.cos a : ℍ[ℝ]) - Real.sin a • n)‖ ≤ Real.exp c * (7 * ε + 445 * f.u) := by
  have hu0 := f.u_pos
  have hu := u16 hp
  have nq : ‖q.reH‖ ≤ 7 := by
    refine abs_le_of_sq_le_sq' ?_ (by norm_num) |>.2
    have e1 : q.reH.re = a := by rw [e]; simp [hn]
    have e2 : q.reH.im = c • n := by rw [e]; ext <;> simp [hn]
    rw [norm_sq_re_im, e1, e2, norm_smul, h1, mul_one, Real.norm_eq_abs, abs_of_nonneg hc0, ← sq_abs a]
    have := pow_le_pow_left₀ (abs_nonneg _) ha 2
    have := pow_le_pow_left₀ hc0 hc 2
    linarith
  have nl : ‖l.reH‖ ≤ 101 / 100 := by
    have := norm_sub_norm_le l.reH n
    linarith
  have hneg : l.neg.reH = -l.reH := by
    ext
    · exact toReal_neg _
    · exact toReal_neg _
    · exact toReal_neg _
    · exact toReal_neg _
  have hlneg : ∀ i, (l.neg.comp i).IsFin :=
    four (isFin_neg.2 (hl 0)) (isFin_neg.2 (hl 1)) (isFin_neg.2 (hl 2)) (isFin_neg.2 (hl 3))
  have nn := sq_line hn h1
  have eM : q.reH * n = ((-c : ℝ) : ℍ[ℝ]) + a • n := by
    rw [e, add_mul, Quaternion.coe_mul_eq_smul, smul_mul_assoc, nn, Quaternion.coe_neg, smul_neg, add_comm]
    congr 2
    rw [← Quaternion.coe_mul_eq_smul, mul_one]
  have eM' : q.reH * -n = ((c : ℝ) : ℍ[ℝ]) + (-a) • n := by
    rw [mul_neg, eM, Quaternion.coe_neg, neg_smul]; abel
  have close (m : Quat (Flt f)) (w : ℍ[ℝ]) (hm : ∀ i, (m.comp i).IsFin) (nm : ‖m.reH‖ ≤ 101 / 100) (hmw : ‖m.reH - w‖ ≤ 5 * f.u) :
      (∀ i, ((q.mul m).comp i).IsFin) ∧ ‖(q.mul m).reH - q.reH * w‖ ≤ 95 * f.u := by
    obtain ⟨k1, k2⟩ := quat_mul_close hp hw q m hq hm (by linarith) (by linarith)
    refine ⟨k1, ?_⟩
    have t := norm_sub_le_norm_sub_add_norm_sub (q.mul m).reH (q.reH * m.reH) (q.reH * w)
    rw [← mul_sub, norm_mul] at t
    have t1 : ‖q.reH‖ * ‖m.reH - w‖ ≤ 7 * (5 * f.u) := mul_le_mul nq hmw (norm_nonneg _) (by norm_num)
    have t2 : ‖q.reH‖ * ‖m.reH‖ ≤ 7 * (101 / 100) := mul_le_mul nq nm (norm_nonneg _) (by norm_num)
    have t3 := mul_le_mul_of_nonneg_left t2 (show 0 ≤ 81 / 10 * f.u by positivity)
    linarith
  obtain ⟨p1, p2⟩ := close l n hl nl hln
  obtain ⟨m1, m2⟩ := close l.neg (-n) hlneg (by rw [hneg, norm_neg]; exact nl) (by
    rw [hneg, ← neg_add', norm_neg, ← sub_eq_add_neg]; exact hln)
  have unit (b : ℝ) : ‖(Real.cos b : ℍ[ℝ]) + Real.sin b • n‖ = 1 := by
    have := exp_line hn h1 0 b
    rw [Real.exp_zero, one_smul] at this
    rw [← this, norm_exp_pure (by simp [hn])]
  have core (m : Quat (Flt f)) (r b : ℝ) (hr : |r| ≤ 3) (hb : |b| ≤ 6) (hm : ∀ i, (m.comp i).IsFin)
      (k : ‖m.reH - ((r : ℍ[ℝ]) + b • n)‖ ≤ 95 * f.u) : (∀ i, (m.exp.comp i).IsFin) ∧
      ‖m.exp.reH - Real.exp r • ((Real.cos b : ℍ[ℝ]) + Real.sin b • n)‖ ≤ Real.exp r * (7 * ε + 445 * f.u) := by
    obtain ⟨a1, a2⟩ := arm hp hw hsc he hε m hm _ k (by simpa [hn] using hr) (by
      have e2 : ((r : ℍ[ℝ]) + b • n).im = b • n := by ext <;> simp [hn]
      rw [e2, norm_smul, h1, mul_one]; exact hb)
    refine ⟨a1, ?_⟩
    rw [exp_line hn h1, norm_smul, unit, mul_one, Real.norm_eq_abs, abs_of_pos (Real.exp_pos _)] at a2
    exact a2
  rw [eM] at p2
  rw [eM'] at m2
  obtain ⟨A1, A2⟩ := core _ (-c) a (by rw [abs_neg, abs_of_nonneg hc0]; exact hc) ha p1 p2
  obtain ⟨B1, B2⟩ := core _ c (-a) (by rw [abs_of_nonneg hc0]; exact hc) (by rw [abs_neg]; exact ha) m1 m2
  rw [Real.cos_neg, Real.sin_neg, neg_smul, ← sub_eq_add_neg] at B2
  exact ⟨⟨A1, B1⟩, A2, B2⟩

private theorem norms {n : ℍ[ℝ]} (hn : n.re = 0) (h1 : ‖n‖ = 1) (a c : ℝ) :
    ‖Real.exp (-c) • ((Real.cos a : ℍ[ℝ]) + Real.sin a • n)‖ = Real.exp (-c) ∧
    ‖Real.exp c • ((Real.cos a : ℍ[ℝ]) - Real.sin a • n)‖ = Real.exp c := by
  have unit (b : ℝ) : ‖(Real.cos b : ℍ[ℝ]) + Real.sin b • n‖ = 1 := by
    have := exp_line hn h1 0 b
    rw [Real.exp_zero, one_smul] at this
    rw [← this, norm_exp_pure (by simp [hn])]
  have u2 := unit (-a)
  rw [Real.cos_neg, Real.sin_neg, neg_smul, ← sub_eq_add_neg] at u2
  rw [norm_smul, norm_smul, unit, u2, mul_one, mul_one, Real.norm_eq_abs, Real.norm_eq_abs, abs_of_pos (Real.exp_pos _),
    abs_of_pos (Real.exp_pos _)]
  exact ⟨rfl, rfl⟩

private theorem exps {c : ℝ} (hc0 : 0 ≤ c) (hc : c ≤ 3) : Real.exp (-c) ≤ 1 ∧ Real.exp c ≤ 21 ∧ 1 ≤ Real.cosh c ∧
    Real.exp (-c) + Real.exp c = 2 * Real.cosh c := by
  refine ⟨Real.exp_le_one_iff.2 (by linarith), (Real.exp_le_exp.2 hc).trans exp3, Real.one_le_cosh c, ?_⟩
  rw [Real.cosh_eq]; ring

/-- The sum or difference of the two exponentials. -/
private theorem pm {X Y S A B : ℍ[ℝ]} {E E' κ u : ℝ} (hu0 : 0 < u) (hκ : κ ≤ 1 / 8) (hA : ‖A‖ = E) (hB : ‖B‖ = E')
    (hX : ‖X - A‖ ≤ E * κ) (hY : ‖Y - B‖ ≤ E' * κ) :
    (‖S - (X + Y)‖ ≤ u * ‖X + Y‖ → ‖S - (A + B)‖ ≤ (E + E') * (κ + 12 / 10 * u)) ∧
    (‖S - (X - Y)‖ ≤ u * ‖X - Y‖ → ‖S - (A - B)‖ ≤ (E + E') * (κ + 12 / 10 * u)) := by
  have E0 : 0 ≤ E := hA ▸ norm_nonneg _
  have E0' : 0 ≤ E' := hB ▸ norm_nonneg _
  have nX : ‖X‖ ≤ E * (1 + κ) := by
    have := norm_sub_norm_le X A
    linarith
  have nY : ‖Y‖ ≤ E' * (1 + κ) := by
    have := norm_sub_norm_le Y B
    linarith
  have W : (E + E') * (1 + κ) ≤ (E + E') * (12 / 10) := mul_le_mul_of_nonneg_left (by linarith) (by linarith)
  refine ⟨fun h => ?_, fun h => ?_⟩
  · have t := norm_sub_le_norm_sub_add_norm_sub S (X + Y) (A + B)
    have t1 : ‖X + Y - (A + B)‖ ≤ ‖X - A‖ + ‖Y - B‖ := by rw [add_sub_add_comm]; exact norm_add_le _ _
    have t2 := mul_le_mul_of_nonneg_left (((norm_add_le X Y).trans (add_le_add nX nY)).trans (by linarith : _ ≤ (E + E') * (12 / 10))) hu0.le
    linarith
  · have t := norm_sub_le_norm_sub_add_norm_sub S (X - Y) (A - B)
    have t1 : ‖X - Y - (A - B)‖ ≤ ‖X - A‖ + ‖Y - B‖ := by rw [sub_sub_sub_comm]; exact norm_sub_le _ _
    have t2 := mul_le_mul_of_nonneg_left (((norm_sub_le X Y).trans (add_le_add nX nY)).trans (by linarith : _ ≤ (E + E') * (12 / 10))) hu0.le
    linarith

private theorem mix_cos (n : ℍ[ℝ]) (C S r p : ℝ) : ((C * ((r + p) / 2) : ℝ) : ℍ[ℝ]) - (S * ((r - p) / 2)) • n =
    (2 : ℝ)⁻¹ • (p • ((C : ℍ[ℝ]) + S • n) + r • ((C : ℍ[ℝ]) - S • n)) := by
  have e : ((C * ((r + p) / 2) : ℝ) : ℍ[ℝ]) = ((r + p) / 2) • (C : ℍ[ℝ]) := by
    rw [mul_comm, Quaternion.coe_mul, Quaternion.coe_mul_eq_smul]
  rw [e]
  generalize (C : ℍ[ℝ]) = D
  module

private theorem mix_sin (n : ℍ[ℝ]) (hn : n * n = -1) (C S r p : ℝ) : ((S * ((r + p) / 2) : ℝ) : ℍ[ℝ]) + (C * ((r - p) / 2)) • n =
    (p • ((C : ℍ[ℝ]) + S • n) - r • ((C : ℍ[ℝ]) - S • n)) * (-(2 : ℝ)⁻¹ • n) := by
  have e : ((S * ((r + p) / 2) : ℝ) : ℍ[ℝ]) = (S * ((r + p) / 2)) • (1 : ℍ[ℝ]) := by
    rw [← Quaternion.coe_mul_eq_smul, mul_one]
  have e2 : (p • ((C : ℍ[ℝ]) + S • n) - r • ((C : ℍ[ℝ]) - S • n)) * (-(2 : ℝ)⁻¹ • n) =
      (-(2 : ℝ)⁻¹ * (p - r) * C) • n + (-(2 : ℝ)⁻¹ * (p + r) * S) • (n * n) := by
    have e3 : (C : ℍ[ℝ]) = C • (1 : ℍ[ℝ]) := by rw [← Quaternion.coe_mul_eq_smul, mul_one]
    rw [e3]
    simp only [sub_mul, add_mul, smul_add, smul_sub, smul_mul_assoc, mul_smul_comm, one_mul]
    module
  rw [e, e2, hn]
  module

private theorem cos_core [L : Libm f] (hp : 16 ≤ f.p) (hw : f.Wide) {ε : ℝ} (hsc : SinCosAcc f ε) (he : ExpAcc f ε) (hε : ε ≤ 1 / 64)
    (q : Quat (Flt f)) (hq : ∀ i, (q.comp i).IsFin) (hl : ∀ i, (q.argq.comp i).IsFin) {n : ℍ[ℝ]} (hn : n.re = 0) (h1 : ‖n‖ = 1) {a c : ℝ}
    (hc0 : 0 ≤ c) (hc : c ≤ 3) (ha : |a| ≤ 6) (e : q.reH = (a : ℍ[ℝ]) + c • n) (hln : ‖q.argq.reH - n‖ ≤ 5 * f.u) :
    (∀ i, (q.cos.comp i).IsFin) ∧
    ‖q.cos.reH - (((Real.cos a * Real.cosh c : ℝ) : ℍ[ℝ]) - (Real.sin a * Real.sinh c) • n)‖ ≤ Real.cosh c * (7 * ε + 450 * f.u) := by
  have hu0 := f.u_pos
  have hu := u16 hp
  have hp8 : 8 ≤ f.p := by omega
  have hη := Fmt.eta_small hp8
  have ε0 : 0 ≤ ε := (abs_nonneg _).trans (hsc.cos 1 trivial).2
  obtain ⟨⟨f1, f2⟩, a1, a2⟩ := arms hp hw hsc he hε q q.argq hq hl hn h1 hc0 hc ha e hln
  obtain ⟨n1, n2⟩ := norms hn h1 a c
  obtain ⟨x1, x2, x3, x4⟩ := exps hc0 hc
  have κ : 7 * ε + 445 * f.u ≤ 1 / 8 := by linarith
  have κ0 : 0 ≤ 7 * ε + 445 * f.u := by positivity
  have bX : ‖(q.mul q.argq).exp.reH‖ ≤ 64 := by
    have t := norm_sub_norm_le (q.mul q.argq).exp.reH (Real.exp (-c) • ((Real.cos a : ℍ[ℝ]) + Real.sin a • n))
    have t2 := mul_le_mul x1 κ κ0 (by norm_num)
    linarith
  have bY : ‖(q.mul q.argq.neg).exp.reH‖ ≤ 64 := by
    have t := norm_sub_norm_le (q.mul q.argq.neg).exp.reH (Real.exp c • ((Real.cos a : ℍ[ℝ]) - Real.sin a • n))
    have t2 := mul_le_mul x2 κ κ0 (by norm_num)
    linarith
  have fs := (pm_fin hp hw _ _ f1 f2 bX bY).1
  have s1 := (C158_add_sub (q.mul q.argq).exp (q.mul q.argq.neg).exp).1 fs
  have s2 := (pm hu0 κ n1 n2 a1 a2).1 s1
  have two := Near.two (f := f)
  have two' : ((1 : Flt f) + 1).toReal = 2 := sub_eq_zero.1 (abs_nonpos_iff.1 two.err)
  have ec : q.cos = ((q.mul q.argq).exp.add (q.mul q.argq.neg).exp).sdiv (1 + 1) := rfl
  rw [x4] at s2
  have bS : ‖((q.mul q.argq).exp.add (q.mul q.argq.neg).exp).reH‖ ≤ 2 * Real.cosh c * (12 / 10) := by
    have t := norm_sub_norm_le ((q.mul q.argq).exp.add (q.mul q.argq.neg).exp).reH (Real.exp (-c) • ((Real.cos a : ℍ[ℝ]) + Real.sin a • n) +
      Real.exp c • ((Real.cos a : ℍ[ℝ]) - Real.sin a • n))
    have t2 := norm_add_le (Real.exp (-c) • ((Real.cos a : ℍ[ℝ]) + Real.sin a • n)) (Real.exp c • ((Real.cos a : ℍ[ℝ]) - Real.sin a • n))
    have t3 : 2 * Real.cosh c * (7 * ε + 445 * f.u + 12 / 10 * f.u) ≤ 2 * Real.cosh c * (2 / 10) :=
      mul_le_mul_of_nonneg_left (by linarith) (by linarith)
    linarith
  rw [ec]
  generalize (q.mul q.argq).exp.add (q.mul q.argq.neg).exp = S at *
  have fd : ∀ i, ((S.sdiv (1 + 1)).comp i).IsFin := by
    have k (i : Fin 4) : (S.comp i / (1 + 1)).IsFin := by
      refine div_isFin (fs i) two.fin (by rw [two']; norm_num) (range16 hp hw ?_)
      have := S.comp_le_reH i
      rw [two', abs_div, abs_of_pos (a := (2 : ℝ)) (by norm_num)]
      linarith
    exact four (k 0) (k 1) (k 2) (k 3)
  refine ⟨fd, ?_⟩
  have d := (C158_scale S (1 + 1) two.fin).1 fd
  rw [two'] at d
  have ee : (((Real.cos a * Real.cosh c : ℝ) : ℍ[ℝ]) - (Real.sin a * Real.sinh c) • n) =
      (2 : ℝ)⁻¹ • (Real.exp (-c) • ((Real.cos a : ℍ[ℝ]) + Real.sin a • n) + Real.exp c • ((Real.cos a : ℍ[ℝ]) - Real.sin a • n)) := by
    rw [Real.cosh_eq, Real.sinh_eq]
    exact mix_cos n _ _ _ _
  rw [ee]
  generalize (Real.exp (-c) • ((Real.cos a : ℍ[ℝ]) + Real.sin a • n) + Real.exp c • ((Real.cos a : ℍ[ℝ]) - Real.sin a • n)) = Z at *
  have t := norm_sub_le_norm_sub_add_norm_sub (S.sdiv (1 + 1)).reH ((2 : ℝ)⁻¹ • S.reH) ((2 : ℝ)⁻¹ • Z)
  rw [← smul_sub, norm_smul] at t
  rw [norm_smul] at d
  have i2 : ‖(2 : ℝ)⁻¹‖ = 1 / 2 := by norm_num
  rw [i2] at d t
  have m := mul_le_mul_of_nonneg_left bS hu0.le
  have m2 : f.u ≤ f.u * Real.cosh c := le_mul_of_one_le_right hu0.le x3
  linarith

private def qE : Quat (Ex (Fin 4)) := ⟨.var 0, ⟨![.var 1, .var 2, .var 3]⟩, false⟩

private theorem abs2_err (q : Quat (Flt f)) (h : q.abs2.IsFin) :
    |q.abs2.toReal - ‖q.reH‖ ^ 2| ≤ ((1 + f.u) ^ 4 - 1) * ‖q.reH‖ ^ 2 + (1 + f.u) ^ 4 * (f.eta * 4) := by
  have hM : ‖q.reH‖ ^ 2 = q.reH.re * q.reH.re + q.reH.imI * q.reH.imI + q.reH.imJ * q.reH.imJ + q.reH.imK * q.reH.imK := by
    rw [sq ‖q.reH‖, ← Quaternion.normSq_eq_norm_mul_self, Quaternion.normSq_def']; ring
  have a0 (η : ℝ) : Ex.absE η (Ex.vals q.comp) qE.abs2 = (|q.reH.re| * |q.reH.re| + η) +
      (|q.reH.imI| * |q.reH.imI| + η) + (|q.reH.imJ| * |q.reH.imJ| + η) + (|q.reH.imK| * |q.reH.imK| + η) := rfl
  have a1 : Ex.evalR (Ex.vals q.comp) qE.abs2 = q.reH.re * q.reH.re +
      q.reH.imI * q.reH.imI + q.reH.imJ * q.reH.imJ + q.reH.imK * q.reH.imK := rfl
  have a2 : qE.abs2.depth = 4 := by decide +kernel
  have key := Ex.err_of_le (x := q.comp) qE.abs2 a2 (S := ‖q.reH‖ ^ 2) (U := 4)
    (by rw [a0, hM]; simp only [abs_mul_abs_self]; linarith) (by rw [a0, a0]; linarith) h
  rw [a1, ← hM] at key
  exact key

/-- The divisor of the sine formula and its inverse. -/
private theorem divisor [L : Libm f] (hp : 16 ≤ f.p) (hw : f.Wide) (l : Quat (Flt f)) (hl : ∀ i, (l.comp i).IsFin) {n : ℍ[ℝ]} (hn : n.re = 0)
    (h1 : ‖n‖ = 1) (hln : ‖l.reH - n‖ ≤ 5 * f.u) :
    ∃ v, (l.smul (1 + 1)).inverse = some v ∧ (∀ i, (v.comp i).IsFin) ∧ ‖v.reH - -(2 : ℝ)⁻¹ • n‖ ≤ 13 * f.u := by
  have hu0 := f.u_pos
  have hu := u16 hp
  have hp8 : 8 ≤ f.p := by omega
  have hη0 := f.eta_pos
  have hη := Fmt.eta_small hp8
  obtain ⟨kk, -, -⟩ := Fmt.kappa456 hp8
  have two := Near.two (f := f)
  have two' : ((1 : Flt f) + 1).toReal = 2 := sub_eq_zero.1 (abs_nonpos_iff.1 two.err)
  have nl : ‖l.reH‖ ≤ 101 / 100 := by
    have := norm_sub_norm_le l.reH n
    linarith
  have fW : ∀ i, ((l.smul (1 + 1)).comp i).IsFin := by
    have k (i : Fin 4) : (l.comp i * (1 + 1)).IsFin := by
      refine mul_isFin (hl i) two.fin (range16 hp hw ?_)
      have := l.comp_le_reH i
      rw [two', abs_mul, abs_of_pos (a := (2 : ℝ)) (by norm_num)]
      linarith
    exact four (k 0) (k 1) (k 2) (k 3)
  have w1 := (C158_scale l (1 + 1) two.fin).2 fW
  have flag : (l.smul (1 + 1)).normalized = false := rfl
  rw [two', norm_smul] at w1
  generalize l.smul (1 + 1) = W at *
  have i2 : ‖(2 : ℝ)‖ = 2 := by norm_num
  rw [i2] at w1
  have w2 : ‖W.reH - (2 : ℝ) • n‖ ≤ 123 / 10 * f.u := by
    have t := norm_sub_le_norm_sub_add_norm_sub W.reH ((2 : ℝ) • l.reH) ((2 : ℝ) • n)
    rw [← smul_sub, norm_smul, i2] at t
    have := mul_le_mul_of_nonneg_left (show 2 * ‖l.reH‖ ≤ 202 / 100 by linarith) hu0.le
    linarith
  have w3 : |‖W.reH‖ - 2| ≤ 123 / 10 * f.u := by
    have := abs_norm_sub_norm_le W.reH ((2 : ℝ) • n)
    rw [norm_smul, h1, i2, mul_one] at this
    linarith
  obtain ⟨w4, w5⟩ := _root_.abs_le.1 w3
  have w6 : |‖W.reH‖ ^ 2 - 4| ≤ 495 / 10 * f.u := by
    have e : ‖W.reH‖ ^ 2 - 4 = (‖W.reH‖ - 2) * (‖W.reH‖ + 2) := by ring
    rw [e, abs_mul, abs_of_nonneg (a := ‖W.reH‖ + 2) (by positivity)]
    have := mul_le_mul w3 (show ‖W.reH‖ + 2 ≤ 402 / 100 by linarith) (by positivity) (by positivity)
    linarith
  obtain ⟨w7, w8⟩ := _root_.abs_le.1 w6
  have nW : ‖W.reH‖ ≤ 201 / 100 := by linarith
  have fa : W.abs2.IsFin := by
    have b := W.comp_le_reH
    have m (i : Fin 4) : (W.comp i * W.comp i).FinLe 5 := by
      have bi := (b i).trans nW
      have t : |(W.comp i).toReal * (W.comp i).toReal| ≤ 405 / 100 := by
        rw [abs_mul]
        have := mul_le_mul bi bi (abs_nonneg _) (by norm_num)
        linarith
      have hf := mul_isFin (fW i) (fW i) (range16 hp hw (t.trans (by norm_num)))
      refine ⟨hf, ?_⟩
      have k := mul_err hf
      have k2 := abs_sub_abs_le_abs_sub (W.comp i * W.comp i).toReal ((W.comp i).toReal * (W.comp i).toReal)
      have k3 := mul_le_mul hu t (abs_nonneg _) (by norm_num)
      linarith
    have ad {x y : Flt f} {A B C : ℝ} (hx : x.FinLe A) (hy : y.FinLe B) (hC : (A + B) * (101 / 100) ≤ C) (hB : A + B ≤ 100) : (x + y).FinLe C := by
      have t : |x.toReal + y.toReal| ≤ A + B := (abs_add_le _ _).trans (add_le_add hx.2 hy.2)
      have hf := add_isFin hx.1 hy.1 (range16 hp hw (t.trans (by linarith)))
      refine ⟨hf, ?_⟩
      have k := add_rel hf
      have k2 := abs_sub_abs_le_abs_sub (x + y).toReal (x.toReal + y.toReal)
      have k0 := (abs_nonneg _).trans t
      have k3 := mul_le_mul hu t (abs_nonneg _) (by norm_num)
      linarith
    exact (ad (C := 50) (ad (C := 30) (ad (C := 20) (m 0) (m 1) (by norm_num) (by norm_num)) (m 2) (by norm_num) (by norm_num)) (m 3)
      (by norm_num) (by norm_num)).1
  have d1 : |W.abs2.toReal - 4| ≤ 66 * f.u := by
    have k := abs2_err W fa
    have k2 := abs_sub_le W.abs2.toReal (‖W.reH‖ ^ 2) 4
    have k3 : ((1 + f.u) ^ 4 - 1) * ‖W.reH‖ ^ 2 ≤ 404 / 100 * f.u * (401 / 100) :=
      mul_le_mul kk (by linarith) (sq_nonneg _) (by positivity)
    have k4 : (1 + f.u) ^ 4 * (f.eta * 4) ≤ 2 * (f.u / 256 * 4) := mul_le_mul (by linarith) (by linarith) (by positivity) (by norm_num)
    linarith
  obtain ⟨d2, d3⟩ := _root_.abs_le.1 d1
  have nz : nearly_zero W.abs2 = false := by
    rw [← Bool.not_eq_true, nearly_zero_flt]
    rintro ⟨-, h⟩
    rw [sub_eq_add_neg, zpow_add₀ (by norm_num), zpow_one] at h
    change _ < 2 * f.u at h
    have := le_abs_self W.abs2.toReal
    linarith
  have ei : W.inverse = some (W.conj.sdiv W.abs2) := by
    simp only [Quat.inverse, flag, nz]; rfl
  have hc : W.conj.reH = star W.reH := by
    ext
    · rw [re_star]; rfl
    · rw [imI_star]; exact toReal_neg _
    · rw [imJ_star]; exact toReal_neg _
    · rw [imK_star]; exact toReal_neg _
  have fc : ∀ i, (W.conj.comp i).IsFin := four (fW 0) (isFin_neg.2 (fW 1)) (isFin_neg.2 (fW 2)) (isFin_neg.2 (fW 3))
  have a0 : 399 / 100 ≤ W.abs2.toReal := by linarith
  have fv : ∀ i, ((W.conj.sdiv W.abs2).comp i).IsFin := by
    have k (i : Fin 4) : (W.conj.comp i / W.abs2).IsFin := by
      refine div_isFin (fc i) fa (by linarith) (range16 hp hw ?_)
      have := W.conj.comp_le_reH i
      rw [hc, Quaternion.norm_star] at this
      rw [abs_div, abs_of_pos (a := W.abs2.toReal) (by linarith), div_le_iff₀ (by linarith)]
      linarith
    exact four (k 0) (k 1) (k 2) (k 3)
  refine ⟨_, ei, fv, ?_⟩
  have v1 := (C158_scale W.conj W.abs2 fa).1 fv
  rw [hc] at v1
  generalize W.abs2.toReal = a at *
  have ap : 0 < a := by linarith
  have ia : |a⁻¹| ≤ 251 / 1000 := by
    rw [abs_of_pos (inv_pos.2 ap)]
    refine (inv_anti₀ (by norm_num) a0).trans (by norm_num)
  have sn : star n = -n := by ext <;> simp [hn]
  have v2 : ‖a⁻¹ • star W.reH - -(2 : ℝ)⁻¹ • n‖ ≤ 12 * f.u := by
    have e : a⁻¹ • star W.reH - -(2 : ℝ)⁻¹ • n = a⁻¹ • star (W.reH - (2 : ℝ) • n) + (a⁻¹ * ((a - 4) * 2⁻¹)) • n := by
      rw [star_sub, Quaternion.star_smul, sn]
      have : a⁻¹ * ((a - 4) * 2⁻¹) = 2⁻¹ - 2 * a⁻¹ := by field_simp; ring
      rw [this]
      module
    rw [e]
    refine (norm_add_le _ _).trans ?_
    rw [norm_smul, norm_smul, h1, mul_one, Quaternion.norm_star, Real.norm_eq_abs, Real.norm_eq_abs, abs_mul, abs_mul]
    have t1 := mul_le_mul ia w2 (norm_nonneg _) (by norm_num)
    have t2 : |a - 4| * |(2 : ℝ)⁻¹| ≤ 66 * f.u * (1 / 2) := mul_le_mul d1 (by norm_num [abs_of_pos]) (abs_nonneg _) (by positivity)
    have t3 := mul_le_mul ia t2 (by positivity) (by norm_num)
    linarith
  have v3 : ‖a⁻¹ • star W.reH‖ ≤ 52 / 100 := by
    rw [norm_smul, Quaternion.norm_star, Real.norm_eq_abs]
    have := mul_le_mul ia nW (norm_nonneg _) (by norm_num)
    linarith
  have t := norm_sub_le_norm_sub_add_norm_sub (W.conj.sdiv W.abs2).reH (a⁻¹ • star W.reH) (-(2 : ℝ)⁻¹ • n)
  have := mul_le_mul_of_nonneg_left v3 hu0.le
  linarith

private theorem sin_core [L : Libm f] (hp : 16 ≤ f.p) (hw : f.Wide) {ε : ℝ} (hsc : SinCosAcc f ε) (he : ExpAcc f ε) (hε : ε ≤ 1 / 64)
    (q : Quat (Flt f)) (hq : ∀ i, (q.comp i).IsFin) (hl : ∀ i, (q.argq.comp i).IsFin) {n : ℍ[ℝ]} (hn : n.re = 0) (h1 : ‖n‖ = 1) {a c : ℝ}
    (hc0 : 0 ≤ c) (hc : c ≤ 3) (ha : |a| ≤ 6) (e : q.reH = (a : ℍ[ℝ]) + c • n) (hln : ‖q.argq.reH - n‖ ≤ 5 * f.u) :
    ∃ s, q.sin = .ok s ∧ (∀ i, (s.comp i).IsFin) ∧
    ‖s.reH - (((Real.sin a * Real.cosh c : ℝ) : ℍ[ℝ]) + (Real.cos a * Real.sinh c) • n)‖ ≤ Real.cosh c * (8 * ε + 490 * f.u) := by
  have hu0 := f.u_pos
  have hu := u16 hp
  have ε0 : 0 ≤ ε := (abs_nonneg _).trans (hsc.cos 1 trivial).2
  obtain ⟨⟨f1, f2⟩, a1, a2⟩ := arms hp hw hsc he hε q q.argq hq hl hn h1 hc0 hc ha e hln
  obtain ⟨n1, n2⟩ := norms hn h1 a c
  obtain ⟨x1, x2, x3, x4⟩ := exps hc0 hc
  have κ : 7 * ε + 445 * f.u ≤ 1 / 8 := by linarith
  have κ0 : 0 ≤ 7 * ε + 445 * f.u := by positivity
  have bX : ‖(q.mul q.argq).exp.reH‖ ≤ 2 := by
    have t := norm_sub_norm_le (q.mul q.argq).exp.reH (Real.exp (-c) • ((Real.cos a : ℍ[ℝ]) + Real.sin a • n))
    have t2 := mul_le_mul x1 κ κ0 (by norm_num)
    linarith
  have bY : ‖(q.mul q.argq.neg).exp.reH‖ ≤ 24 := by
    have t := norm_sub_norm_le (q.mul q.argq.neg).exp.reH (Real.exp c • ((Real.cos a : ℍ[ℝ]) - Real.sin a • n))
    have t2 := mul_le_mul x2 κ κ0 (by norm_num)
    linarith
  have fs := (pm_fin hp hw _ _ f1 f2 (by linarith) (by linarith)).2
  have s1 := (C158_add_sub (q.mul q.argq).exp (q.mul q.argq.neg).exp).2 fs
  have s2 := (pm hu0 κ n1 n2 a1 a2).2 s1
  obtain ⟨v, ev, fv, hv⟩ := divisor hp hw q.argq hl hn h1 hln
  have es : q.sin = .ok (((q.mul q.argq).exp.sub (q.mul q.argq.neg).exp).mul v) := by
    change Quat.div _ _ = _
    unfold Quat.div
    rw [ev]; rfl
  rw [x4] at s2
  have bS : ‖((q.mul q.argq).exp.sub (q.mul q.argq.neg).exp).reH‖ ≤ 2 * Real.cosh c * (12 / 10) := by
    have t := norm_sub_norm_le ((q.mul q.argq).exp.sub (q.mul q.argq.neg).exp).reH (Real.exp (-c) • ((Real.cos a : ℍ[ℝ]) + Real.sin a • n) -
      Real.exp c • ((Real.cos a : ℍ[ℝ]) - Real.sin a • n))
    have t2 := norm_sub_le (Real.exp (-c) • ((Real.cos a : ℍ[ℝ]) + Real.sin a • n)) (Real.exp c • ((Real.cos a : ℍ[ℝ]) - Real.sin a • n))
    have t3 : 2 * Real.cosh c * (7 * ε + 445 * f.u + 12 / 10 * f.u) ≤ 2 * Real.cosh c * (2 / 10) :=
      mul_le_mul_of_nonneg_left (by linarith) (by linarith)
    linarith
  have bZ : ‖Real.exp (-c) • ((Real.cos a : ℍ[ℝ]) + Real.sin a • n) - Real.exp c • ((Real.cos a : ℍ[ℝ]) - Real.sin a • n)‖ ≤ 2 * Real.cosh c := by
    have t2 := norm_sub_le (Real.exp (-c) • ((Real.cos a : ℍ[ℝ]) + Real.sin a • n)) (Real.exp c • ((Real.cos a : ℍ[ℝ]) - Real.sin a • n))
    linarith
  have nn : ‖-(2 : ℝ)⁻¹ • n‖ = 1 / 2 := by rw [norm_smul, h1]; norm_num
  have nv : ‖v.reH‖ ≤ 501 / 1000 := by
    have := norm_sub_norm_le v.reH (-(2 : ℝ)⁻¹ • n)
    linarith
  rw [es]
  generalize (q.mul q.argq).exp.sub (q.mul q.argq.neg).exp = S at *
  have bS64 : ‖S.reH‖ ≤ 64 := by linarith
  obtain ⟨fm, hm⟩ := quat_mul_close hp hw S v fs fv bS64 (by linarith)
  refine ⟨_, rfl, fm, ?_⟩
  have ee : (((Real.sin a * Real.cosh c : ℝ) : ℍ[ℝ]) + (Real.cos a * Real.sinh c) • n) =
      (Real.exp (-c) • ((Real.cos a : ℍ[ℝ]) + Real.sin a • n) - Real.exp c • ((Real.cos a : ℍ[ℝ]) - Real.sin a • n)) * (-(2 : ℝ)⁻¹ • n) := by
    rw [Real.cosh_eq, Real.sinh_eq]
    exact mix_sin n (sq_line hn h1) _ _ _ _
  rw [ee]
  generalize (Real.exp (-c) • ((Real.cos a : ℍ[ℝ]) + Real.sin a • n) - Real.exp c • ((Real.cos a : ℍ[ℝ]) - Real.sin a • n)) = Z at *
  generalize -(2 : ℝ)⁻¹ • n = m at *
  have t := norm_sub_le_norm_sub_add_norm_sub (S.mul v).reH (S.reH * v.reH) (Z * m)
  have e2 : S.reH * v.reH - Z * m = (S.reH - Z) * v.reH + Z * (v.reH - m) := by noncomm_ring
  have t2 := norm_add_le ((S.reH - Z) * v.reH) (Z * (v.reH - m))
  rw [← e2, norm_mul, norm_mul] at t2
  have C0 : 0 ≤ Real.cosh c := by linarith
  have g1 : ‖S.reH - Z‖ * ‖v.reH‖ ≤ 2 * Real.cosh c * (7 * ε + 445 * f.u + 12 / 10 * f.u) * (501 / 1000) :=
    mul_le_mul s2 nv (norm_nonneg _) (by positivity)
  have g2 : ‖Z‖ * ‖v.reH - m‖ ≤ 2 * Real.cosh c * (13 * f.u) := mul_le_mul bZ hv (norm_nonneg _) (by positivity)
  have g3 : ‖S.reH‖ * ‖v.reH‖ ≤ 2 * Real.cosh c * (12 / 10) * (501 / 1000) := mul_le_mul bS nv (norm_nonneg _) (by positivity)
  have g4 := mul_le_mul_of_nonneg_left g3 (show 0 ≤ 81 / 10 * f.u by positivity)
  have g5 : f.u ≤ f.u * Real.cosh c := le_mul_of_one_le_right hu0.le x3
  have g6 : 0 ≤ Real.cosh c * ε := by positivity
  linarith

private theorem new_imag_reH (q : Quat (Flt f)) : (Quat.new 0 q.q).reH = q.reH.im := by
  ext
  · rw [re_im]; exact toReal_zero (f := f)
  · rfl
  · rfl
  · rfl

/-- **C158.** `argq` returns the direction of the imaginary part up to `5u`, flagged as normalised; for a real quaternion it returns
exactly the first imaginary unit. -/
theorem C158_argq [L : Libm f] (hw : f.Wide) (q : Quat (Flt f)) (hq : ∀ i, (q.comp i).IsFin) (h8 : ‖q.reH.im‖ ≤ 8) :
    (1 / 4 ≤ ‖q.reH.im‖ → (∀ i, (q.argq.comp i).IsFin) ∧ q.argq.normalized = true ∧
      ‖q.argq.reH - ‖q.reH.im‖⁻¹ • q.reH.im‖ ≤ 5 * f.u) ∧
    (q.reH.im = 0 → (∀ i, (q.argq.comp i).IsFin) ∧ q.argq.normalized = true ∧ q.argq.reH = ⟨0, 1, 0, 0⟩) := by
  have hp := hw.p
  have hu0 := f.u_pos
  have hu := Fmt.u_le_of_p hp
  have fin : ∀ i, ((Quat.new 0 q.q).comp i).IsFin := four isFin_zero (hq 1) (hq 2) (hq 3)
  refine ⟨fun h => ?_, fun h => ?_⟩
  · have hM := new_imag_reH q
    obtain ⟨k1, k2⟩ := Quat.norm2_isFin hw (Quat.new 0 q.q) fin (by rw [hM]; linarith) (by rw [hM]; exact h8)
    have := C139_normalize_q hp (Quat.new 0 q.q) fin k1 (by
      rw [hM]
      have := pow_le_pow_left₀ (by norm_num) h 2
      linarith) k2
    rw [hM] at this
    exact this
  · have z (i : Fin 3) : (q.q i).toReal = 0 := by
      have h1 := congrArg QuaternionAlgebra.imI h
      have h2 := congrArg QuaternionAlgebra.imJ h
      have h3 := congrArg QuaternionAlgebra.imK h
      rw [imI_im] at h1
      rw [imJ_im] at h2
      rw [imK_im] at h3
      fin_cases i
      exacts [h1, h2, h3]
    have m (a b : Flt f) (ha : a.IsFin) (hb : b.IsFin) (h0 : a.toReal = 0) : Near (a * b) 0 f.eta := by
      have hf : (a * b).IsFin := mul_isFin ha hb (Fmt.range_of_p hp (by rw [h0, zero_mul, abs_zero]; norm_num))
      refine ⟨hf, ?_⟩
      have := mul_err hf
      rwa [h0, zero_mul, abs_zero, mul_zero, zero_add] at this
    have hη := Fmt.eta_small hp
    have hη0 := f.eta_pos
    have ad {a b : Flt f} {x y : ℝ} (ha : Near a 0 x) (hb : Near b 0 y) (h : x + y ≤ 1) : Near (a + b) 0 (2 * (x + y)) := by
      have := Near.add hp (B := x + y) ha hb (by simp) (by linarith) (e := 2 * (x + y)) (by
        have := ha.nonneg
        have := hb.nonneg
        have := mul_le_mul_of_nonneg_right hu (show 0 ≤ x + y by linarith)
        linarith)
      simpa using this
    have d : Near ((Quat.new 0 q.q).dot (Quat.new 0 q.q)) 0 (2 * (f.eta + 2 * (2 * (f.eta + f.eta) + f.eta))) :=
      ad (m 0 0 isFin_zero isFin_zero toReal_zero)
        (ad (ad (m _ _ (hq 1) (hq 1) (z 0)) (m _ _ (hq 2) (hq 2) (z 1)) (by linarith)) (m _ _ (hq 3) (hq 3) (z 2)) (by linarith)) (by linarith)
    have lt : ROrd.lt (epsilon f) ((Quat.new 0 q.q).dot (Quat.new 0 q.q)) = false := by
      rw [← Bool.not_eq_true, lt_iff (a := epsilon f) (show (epsilon f).IsFin from trivial) d.fin]
      have ee : (epsilon f).toReal = 2 * f.u := by
        change (2 : ℝ) ^ (1 - (f.p : ℤ)) = 2 * (2 : ℝ) ^ (-(f.p : ℤ))
        rw [sub_eq_add_neg, zpow_add₀ (by norm_num), zpow_one]
      rw [ee]
      have := (_root_.abs_le.1 d.err).2
      linarith
    have e : q.argq = ⟨0, V3.x_axis, true⟩ := by
      unfold Quat.argq Quat.normalize_q
      exact if_neg (by rw [← Bool.not_eq_true] at lt; exact lt)
    rw [e]
    refine ⟨four isFin_zero isFin_one isFin_zero isFin_zero, rfl, ?_⟩
    ext
    · exact toReal_zero (f := f)
    · exact toReal_one (f := f)
    · exact toReal_zero (f := f)
    · exact toReal_zero (f := f)

/-- A unit imaginary direction close to the computed one. -/
private theorem direction [L : Libm f] (hw : f.Wide) (q : Quat (Flt f)) (hq : ∀ i, (q.comp i).IsFin) (h3 : ‖q.reH.im‖ ≤ 3)
    (h0 : q.reH.im = 0 ∨ 1 / 4 ≤ ‖q.reH.im‖) :
    ∃ n : ℍ[ℝ], n.re = 0 ∧ ‖n‖ = 1 ∧ q.reH = (q.reH.re : ℍ[ℝ]) + ‖q.reH.im‖ • n ∧ (∀ i, (q.argq.comp i).IsFin) ∧
      ‖q.argq.reH - n‖ ≤ 5 * f.u ∧ ∀ x : ℝ, (x * Real.sinh ‖q.reH.im‖) • n = (x * (Real.sinh ‖q.reH.im‖ / ‖q.reH.im‖)) • q.reH.im := by
  obtain ⟨A, B⟩ := C158_argq hw q hq (by linarith)
  have split : q.reH = (q.reH.re : ℍ[ℝ]) + q.reH.im := (Quaternion.re_add_im _).symm
  rcases h0 with h | h
  · obtain ⟨b1, -, b3⟩ := B h
    obtain ⟨I, hI⟩ : ∃ I : ℍ[ℝ], I = ⟨0, 1, 0, 0⟩ := ⟨_, rfl⟩
    rw [← hI] at b3
    refine ⟨I, by rw [hI], ?_, ?_, b1, ?_, fun x => ?_⟩
    · have : ‖I‖ ^ 2 = 1 := by
        rw [sq, ← Quaternion.normSq_eq_norm_mul_self, Quaternion.normSq_def', hI]; norm_num
      exact (pow_eq_one_iff_of_nonneg (norm_nonneg _) (by norm_num)).1 this
    · rw [h, norm_zero, zero_smul, add_zero]
      rw [h, add_zero] at split
      exact split
    · rw [b3, sub_self, norm_zero]
      have := f.u_pos
      linarith
    · rw [h, norm_zero, Real.sinh_zero]; simp
  · obtain ⟨a1, -, a3⟩ := A h
    have pos : 0 < ‖q.reH.im‖ := by linarith
    refine ⟨‖q.reH.im‖⁻¹ • q.reH.im, by simp, ?_, ?_, a1, a3, fun x => ?_⟩
    · rw [norm_smul, norm_inv, norm_norm, inv_mul_cancel₀ pos.ne']
    · rw [smul_smul, mul_inv_cancel₀ pos.ne', one_smul]
      exact split
    · rw [smul_smul, div_eq_mul_inv, mul_assoc]

/-- **C158.** The computed cosine of a quaternion is its cosine up to `7ε + 450u` relative to the hyperbolic cosine of the imaginary norm. -/
theorem C158_cos [L : Libm f] (hp : 16 ≤ f.p) (hw : f.Wide) {ε : ℝ} (hsc : SinCosAcc f ε) (he : ExpAcc f ε) (hε : ε ≤ 1 / 64)
    (q : Quat (Flt f)) (hq : ∀ i, (q.comp i).IsFin) (hr : |q.reH.re| ≤ 6) (h3 : ‖q.reH.im‖ ≤ 3) (h0 : q.reH.im = 0 ∨ 1 / 4 ≤ ‖q.reH.im‖) :
    (∀ i, (q.cos.comp i).IsFin) ∧
    ‖q.cos.reH - (((Real.cos q.reH.re * Real.cosh ‖q.reH.im‖ : ℝ) : ℍ[ℝ]) -
      (Real.sin q.reH.re * (Real.sinh ‖q.reH.im‖ / ‖q.reH.im‖)) • q.reH.im)‖ ≤ Real.cosh ‖q.reH.im‖ * (7 * ε + 450 * f.u) := by
  obtain ⟨n, n0, n1, e, fl, hl, hx⟩ := direction hw q hq h3 h0
  rw [← hx]
  exact cos_core hp hw hsc he hε q hq fl n0 n1 (norm_nonneg _) h3 hr e hl

/-- **C158.** The computed sine of a quaternion does not panic and is its sine up to `8ε + 490u` relative to the hyperbolic cosine of the
imaginary norm. -/
theorem C158_sin [L : Libm f] (hp : 16 ≤ f.p) (hw : f.Wide) {ε : ℝ} (hsc : SinCosAcc f ε) (he : ExpAcc f ε) (hε : ε ≤ 1 / 64)
    (q : Quat (Flt f)) (hq : ∀ i, (q.comp i).IsFin) (hr : |q.reH.re| ≤ 6) (h3 : ‖q.reH.im‖ ≤ 3) (h0 : q.reH.im = 0 ∨ 1 / 4 ≤ ‖q.reH.im‖) :
    ∃ s, q.sin = .ok s ∧ (∀ i, (s.comp i).IsFin) ∧
    ‖s.reH - (((Real.sin q.reH.re * Real.cosh ‖q.reH.im‖ : ℝ) : ℍ[ℝ]) +
      (Real.cos q.reH.re * (Real.sinh ‖q.reH.im‖ / ‖q.reH.im‖)) • q.reH.im)‖ ≤ Real.cosh ‖q.reH.im‖ * (8 * ε + 490 * f.u) := by
  obtain ⟨n, n0, n1, e, fl, hl, hx⟩ := direction hw q hq h3 h0
  rw [← hx]
  exact sin_core hp hw hsc he hε q hq fl n0 n1 (norm_nonneg _) h3 hr e hl

/-- `1 + i` and the real quaternion `1` in double precision with correctly rounded elementary functions: all hypotheses hold, the
computed cosine of `1 + i` is `cos 1 cosh 1 - (sin 1 sinh 1) i` and the computed sine of `1` is `sin 1`, up to some hundred ulps. -/
example : let := correctLibm Fmt.f64
    ‖(⟨1, ⟨![1, 0, 0]⟩, false⟩ : Quat (Flt Fmt.f64)).cos.reH - (((Real.cos 1 * Real.cosh 1 : ℝ) : ℍ[ℝ]) -
      (Real.sin 1 * Real.sinh 1) • (⟨1, ⟨![1, 0, 0]⟩, false⟩ : Quat (Flt Fmt.f64)).reH.im)‖ ≤ Real.cosh 1 * (478 * Fmt.f64.u) ∧
    ∃ s, (⟨1, ⟨![0, 0, 0]⟩, true⟩ : Quat (Flt Fmt.f64)).sin = .ok s ∧ ‖s.reH - (Real.sin 1 : ℍ[ℝ])‖ ≤ 522 * Fmt.f64.u := by
  let := correctLibm Fmt.f64
  have hu := Fmt.f64.u_pos
  have hu2 := Fmt.u_le_of_p Fmt.f64_wide.p
  obtain ⟨h1, h2, -, -, -⟩ := correctLibm_all (f := Fmt.f64) Fmt.f64_wide.p
  have hu3 : 4 * Fmt.f64.u ≤ 1 / 64 := by linarith
  have one := toReal_one (f := Fmt.f64)
  have zero := toReal_zero (f := Fmt.f64)
  constructor
  · obtain ⟨q, hq⟩ : ∃ q : Quat (Flt Fmt.f64), q = ⟨1, ⟨![1, 0, 0]⟩, false⟩ := ⟨_, rfl⟩
    rw [← hq]
    have e : ‖q.reH.im‖ = 1 := by
      rw [← sq_eq_sq₀ (norm_nonneg _) (by norm_num), sq, ← Quaternion.normSq_eq_norm_mul_self, Quaternion.normSq_def', re_im, imI_im,
        imJ_im, imK_im, hq]
      change 0 ^ 2 + (1 : Flt Fmt.f64).toReal ^ 2 + (0 : Flt Fmt.f64).toReal ^ 2 + (0 : Flt Fmt.f64).toReal ^ 2 = _
      rw [one, zero]; norm_num
    have er : q.reH.re = 1 := by rw [hq]; exact one
    have fin : ∀ i, (q.comp i).IsFin := by
      intro i; rw [hq]; fin_cases i <;> trivial
    have h := (C158_cos (by decide) Fmt.f64_wide h1 h2 hu3 q fin (by rw [er]; norm_num) (by rw [e]; norm_num)
      (Or.inr (by rw [e]; norm_num))).2
    rw [e, er, div_one] at h
    refine h.trans (mul_le_mul_of_nonneg_left (by linarith) (Real.cosh_pos _).le)
  · obtain ⟨q, hq⟩ : ∃ q : Quat (Flt Fmt.f64), q = ⟨1, ⟨![0, 0, 0]⟩, true⟩ := ⟨_, rfl⟩
    rw [← hq]
    have e : q.reH.im = 0 := by
      rw [hq]
      ext
      · rw [re_im]; rfl
      · rw [imI_im]; exact zero
      · rw [imJ_im]; exact zero
      · rw [imK_im]; exact zero
    have er : q.reH.re = 1 := by rw [hq]; exact one
    have fin : ∀ i, (q.comp i).IsFin := by
      intro i; rw [hq]; fin_cases i <;> trivial
    obtain ⟨s, k1, -, k3⟩ := C158_sin (by decide) Fmt.f64_wide h1 h2 hu3 q fin (by rw [er]; norm_num) (by rw [e, norm_zero]; norm_num)
      (Or.inl e)
    rw [e, er, norm_zero, Real.cosh_zero, smul_zero, add_zero, mul_one, one_mul] at k3
    exact ⟨s, k1, k3.trans (by linarith)⟩

end StaticMath

import Verif.Props.IeeeQuatTrig
import Verif.Props.IeeeExamples

/-!
# C165: every program of rotations in floating point
-/

namespace StaticMath
open Flt Quaternion

variable {f : Fmt}

/-- Programs that combine rotations. A leaf is a quaternion of floats together with the unit quaternion it stands for. -/
inductive QuatProgram (f : Fmt) : Type
  | leaf (q : Quat (Flt f)) (z : ℍ[ℝ])
  | mul (a b : QuatProgram f)
  | div (a b : QuatProgram f)
  | conj (a : QuatProgram f)
  | neg (a : QuatProgram f)
  | inverse (a : QuatProgram f)
  | normalize (a : QuatProgram f)

namespace QuatProgram

/-- The program run on floats. -/
noncomputable def run [Libm f] : QuatProgram f → MayPanic (Quat (Flt f))
  | leaf q _ => pure q
  | mul a b => do pure ((← a.run).mul (← b.run))
  | div a b => do (← a.run).div (← b.run)
  | conj a => do pure (← a.run).conj
  | neg a => do pure (← a.run).neg
  | inverse a => do unwrapSome (← a.run).inverse
  | normalize a => do unwrapSome (← a.run).normalize

/-- The quaternion it stands for. -/
noncomputable def exact : QuatProgram f → ℍ[ℝ]
  | leaf _ z => z
  | mul a b => a.exact * b.exact
  | div a b => a.exact * (b.exact)⁻¹
  | conj a => (a.exact)⁻¹
  | neg a => -a.exact
  | inverse a => (a.exact)⁻¹
  | normalize a => a.exact

/-- Number of leaves; inverses, divisors and normalizations count twice. -/
def weight : QuatProgram f → ℕ
  | leaf _ _ => 1
  | mul a b => a.weight + b.weight
  | div a b => a.weight + 2 * b.weight
  | conj a => a.weight
  | neg a => a.weight
  | inverse a => 2 * a.weight
  | normalize a => 2 * a.weight

/-- The leaves are finite and within `δ` of unit quaternions. -/
def Valid (δ : ℝ) : QuatProgram f → Prop
  | leaf q z => (∀ i, (q.comp i).IsFin) ∧ ‖z‖ = 1 ∧ ‖q.reH - z‖ ≤ δ
  | mul a b => a.Valid δ ∧ b.Valid δ
  | div a b => a.Valid δ ∧ b.Valid δ
  | conj a => a.Valid δ
  | neg a => a.Valid δ
  | inverse a => a.Valid δ
  | normalize a => a.Valid δ

theorem weight_pos (e : QuatProgram f) : 1 ≤ e.weight := by
  induction e <;> simp only [weight] <;> omega

end QuatProgram

private def qE : Quat (Ex (Fin 4)) := ⟨.var 0, ⟨![.var 1, .var 2, .var 3]⟩, false⟩

private theorem abs2_err (q : Quat (Flt f)) (h : q.abs2.IsFin) :
    |q.abs2.toReal - ‖q.reH‖ ^ 2| ≤ ((1 + f.u) ^ 4 - 1) * ‖q.reH‖ ^ 2 + (1 + f.u) ^ 4 * (f.eta * 4) := by
  have hM : ‖q.reH‖ ^ 2 = q.reH.re * q.reH.re + q.reH.imI * q.reH.imI + q.reH.imJ * q.reH.imJ + q.reH.imK * q.reH.imK := by
    rw [sq ‖q.reH‖, ← Quaternion.normSq_eq_norm_mul_self, Quaternion.normSq_def']; ring
  have a0 (η : ℝ) : Ex.absE η (Ex.vals q.comp) qE.abs2 = (|q.reH.re| * |q.reH.re| + η) +
      (|q.reH.imI| * |q.reH.imI| + η) + (|q.reH.imJ| * |q.reH.imJ| + η) + (|q.reH.imK| * |q.reH.imK| + η) := rfl
  have a1 : Ex.evalR (Ex.vals q.comp) qE.abs2 = q.reH.re * q.reH.re +
      q.reH.imI * q.reH.imI + q.reH.imJ * q.reH.imJ + q.reH.imK * q.reH.imK := rfl
  have a2 : qE.abs2.depth = 4 := by decide +kernel
  have key := Ex.err_of_le (x := q.comp) qE.abs2 a2 (S := ‖q.reH‖ ^ 2) (U := 4)
    (by rw [a0, hM]; simp only [abs_mul_abs_self]; linarith) (by rw [a0, a0]; linarith) h
  rw [a1, ← hM] at key
  exact key

private theorem dot_err (q : Quat (Flt f)) (h : (q.dot q).IsFin) :
    |(q.dot q).toReal - ‖q.reH‖ ^ 2| ≤ ((1 + f.u) ^ 4 - 1) * ‖q.reH‖ ^ 2 + (1 + f.u) ^ 4 * (f.eta * 4) := by
  have hM : ‖q.reH‖ ^ 2 = q.reH.re * q.reH.re + (q.reH.imI * q.reH.imI + q.reH.imJ * q.reH.imJ + q.reH.imK * q.reH.imK) := by
    rw [sq ‖q.reH‖, ← Quaternion.normSq_eq_norm_mul_self, Quaternion.normSq_def']; ring
  have a0 (η : ℝ) : Ex.absE η (Ex.vals q.comp) (qE.dot qE) = (|q.reH.re| * |q.reH.re| + η) +
      ((|q.reH.imI| * |q.reH.imI| + η) + (|q.reH.imJ| * |q.reH.imJ| + η) + (|q.reH.imK| * |q.reH.imK| + η)) := rfl
  have a1 : Ex.evalR (Ex.vals q.comp) (qE.dot qE) = q.reH.re * q.reH.re +
      (q.reH.imI * q.reH.imI + q.reH.imJ * q.reH.imJ + q.reH.imK * q.reH.imK) := rfl
  have a2 : (qE.dot qE).depth = 4 := by decide +kernel
  have key := Ex.err_of_le (x := q.comp) (qE.dot qE) a2 (S := ‖q.reH‖ ^ 2) (U := 4)
    (by rw [a0, hM]; simp only [abs_mul_abs_self]; linarith) (by rw [a0, a0]; linarith) h
  rw [a1, ← hM] at key
  exact key

private theorem fin_squares (hp : 8 ≤ f.p) (q : Quat (Flt f)) (hq : ∀ i, (q.comp i).IsFin) (hn : ‖q.reH‖ ≤ 3 / 2) :
    q.abs2.IsFin ∧ (q.dot q).IsFin := by
  have hu := Fmt.u_le_of_p hp
  have hη := Fmt.eta_small hp
  have m (i : Fin 4) : (q.comp i * q.comp i).FinLe 3 := by
    have bi := (q.comp_le_reH i).trans hn
    have t : |(q.comp i).toReal * (q.comp i).toReal| ≤ 9 / 4 := by
      rw [abs_mul]
      have := mul_le_mul bi bi (abs_nonneg _) (by norm_num)
      linarith
    have hf := mul_isFin (hq i) (hq i) (Fmt.range_of_p hp (t.trans (by norm_num)))
    refine ⟨hf, ?_⟩
    have k := mul_err hf
    have k2 := abs_sub_abs_le_abs_sub (q.comp i * q.comp i).toReal ((q.comp i).toReal * (q.comp i).toReal)
    have k3 := mul_le_mul hu t (abs_nonneg _) (by norm_num)
    linarith
  have ad {x y : Flt f} {A B C : ℝ} (hx : x.FinLe A) (hy : y.FinLe B) (hC : (A + B) * (101 / 100) ≤ C) (hB : A + B ≤ 100) : (x + y).FinLe C := by
    have t : |x.toReal + y.toReal| ≤ A + B := (abs_add_le _ _).trans (add_le_add hx.2 hy.2)
    have hf := add_isFin hx.1 hy.1 (Fmt.range_of_p hp (t.trans (by linarith)))
    refine ⟨hf, ?_⟩
    have k := add_rel hf
    have k2 := abs_sub_abs_le_abs_sub (x + y).toReal (x.toReal + y.toReal)
    have k0 := (abs_nonneg _).trans t
    have k3 := mul_le_mul hu t (abs_nonneg _) (by norm_num)
    linarith
  exact ⟨(ad (C := 50) (ad (C := 20) (ad (C := 7) (m 0) (m 1) (by norm_num) (by norm_num)) (m 2) (by norm_num) (by norm_num)) (m 3)
      (by norm_num) (by norm_num)).1,
    (ad (C := 50) (m 0) (ad (C := 20) (ad (C := 7) (m 1) (m 2) (by norm_num) (by norm_num)) (m 3) (by norm_num) (by norm_num))
      (by norm_num) (by norm_num)).1⟩

private theorem big [Libm f] {a : Flt f} (h : 2 * f.u ≤ a.toReal) : nearly_zero a = false := by
  rw [← Bool.not_eq_true, nearly_zero_flt]
  rintro ⟨-, h'⟩
  rw [sub_eq_add_neg, zpow_add₀ (by norm_num), zpow_one] at h'
  change _ < 2 * f.u at h'
  have := le_abs_self a.toReal
  linarith

private theorem four {P : Fin 4 → Prop} (h0 : P 0) (h1 : P 1) (h2 : P 2) (h3 : P 3) : ∀ i, P i := by
  intro i
  fin_cases i
  exacts [h0, h1, h2, h3]

private theorem conj_reH (q : Quat (Flt f)) : q.conj.reH = star q.reH := by
  ext
  · rw [re_star]; rfl
  · rw [imI_star]; exact toReal_neg _
  · rw [imJ_star]; exact toReal_neg _
  · rw [imK_star]; exact toReal_neg _

private theorem inv_unit {z : ℍ[ℝ]} (hz : ‖z‖ = 1) : z⁻¹ = star z := by
  have h : normSq z = 1 := by rw [normSq_eq_norm_mul_self, hz, one_mul]
  have e : z⁻¹ = (normSq z)⁻¹ • star z := rfl
  rw [e, h, inv_one, one_smul]

private theorem conj_step {q : Quat (Flt f)} {z : ℍ[ℝ]} {g : ℝ} (hq : ∀ i, (q.comp i).IsFin) (hz : ‖z‖ = 1) (h : ‖q.reH - z‖ ≤ g) :
    (∀ i, (q.conj.comp i).IsFin) ∧ ‖q.conj.reH - z⁻¹‖ ≤ g := by
  refine ⟨four (hq 0) (isFin_neg.2 (hq 1)) (isFin_neg.2 (hq 2)) (isFin_neg.2 (hq 3)), ?_⟩
  rw [conj_reH, inv_unit hz, ← star_sub, Quaternion.norm_star]
  exact h

private theorem mul_step (hp : 8 ≤ f.p) {q r : Quat (Flt f)} {z w : ℍ[ℝ]} {g k : ℝ} (hq : ∀ i, (q.comp i).IsFin)
    (hr : ∀ i, (r.comp i).IsFin) (hz : ‖z‖ = 1) (hw : ‖w‖ = 1) (h1 : ‖q.reH - z‖ ≤ g - 1) (h2 : ‖r.reH - w‖ ≤ k - 1)
    (hg : g ≤ 2) (hk : k ≤ 2) :
    (∀ i, ((q.mul r).comp i).IsFin) ∧ ‖(q.mul r).reH - z * w‖ ≤ g * k * (1 + 9 * f.u) - 1 := by
  have hu := Fmt.u_le_of_p hp
  have hu0 := f.u_pos
  have hη := Fmt.eta_small hp
  have hη0 := f.eta_pos
  obtain ⟨hκ, -, -⟩ := Fmt.kappa456 hp
  have g1 : 1 ≤ g := by have := norm_nonneg (q.reH - z); linarith
  have k1 : 1 ≤ k := by have := norm_nonneg (r.reH - w); linarith
  have hqn : ‖q.reH‖ ≤ g := by
    have := norm_le_norm_add_norm_sub' q.reH z
    linarith
  have hrn : ‖r.reH‖ ≤ k := by
    have := norm_le_norm_add_norm_sub' r.reH w
    linarith
  have hfin : ∀ i, ((q.mul r).comp i).IsFin := by
    refine (C105_no_overflow q r ⟨fun _ => 0⟩ 2 (by norm_num) (fun i => ⟨hq i, (q.comp_le_reH i).trans (hqn.trans hg)⟩)
      (fun i => ⟨hr i, (r.comp_le_reH i).trans (hrn.trans hk)⟩) fun i => ⟨isFin_zero, ?_⟩).1 ?_
    · change |(0 : Flt f).toReal| ≤ 2
      rw [toReal_zero]; norm_num
    · have h1 : (2 : ℝ) ^ (9 : ℤ) ≤ (2 : ℝ) ^ (f.emax + 1) :=
        zpow_le_zpow_right₀ (by norm_num) (by have := f.hmax; omega)
      have h2 : (2 : ℝ) ^ (9 : ℤ) = 512 := by norm_num
      linarith
  refine ⟨hfin, ?_⟩
  have hE := (C105_product q r hfin).2.1
  have hNN : ‖q.reH‖ * ‖r.reH‖ ≤ g * k := mul_le_mul hqn hrn (norm_nonneg _) (by positivity)
  have hdec : (q.mul r).reH - z * w = ((q.mul r).reH - q.reH * r.reH) + ((q.reH - z) * r.reH + z * (r.reH - w)) := by noncomm_ring
  have n1 : ‖(q.reH - z) * r.reH + z * (r.reH - w)‖ ≤ (g - 1) * k + (k - 1) := by
    refine (norm_add_le _ _).trans ?_
    rw [norm_mul, norm_mul, hz, one_mul]
    exact add_le_add (mul_le_mul h1 hrn (norm_nonneg _) (by linarith)) h2
  have n2 : ‖(q.mul r).reH - q.reH * r.reH‖ ≤ 9 * f.u * (g * k) := by
    refine hE.trans ?_
    have a1 : ((1 + f.u) ^ 4 - 1) * (‖q.reH‖ * ‖r.reH‖) ≤ 404 / 100 * f.u * (g * k) :=
      mul_le_mul hκ hNN (by positivity) (by positivity)
    have a2 : (1 + f.u) ^ 4 * (f.eta * 4) ≤ 2 * (f.u / 256 * 4) :=
      mul_le_mul (by linarith) (by linarith) (by positivity) (by norm_num)
    have a3 : 1 ≤ g * k := by nlinarith
    have a4 := mul_le_mul_of_nonneg_left a3 hu0.le
    linarith
  rw [hdec]
  refine (norm_add_le _ _).trans ?_
  linarith

/-- The computed norm of a quaternion that is not too far from a unit quaternion. -/
theorem Quat.norm2_step [Libm f] (hp : 8 ≤ f.p) {q : Quat (Flt f)} (hq : ∀ i, (q.comp i).IsFin) (n1 : 1 / 2 ≤ ‖q.reH‖)
    (n2 : ‖q.reH‖ ≤ 3 / 2) : q.norm2.IsFin ∧ |q.norm2.toReal - ‖q.reH‖| ≤ 7 / 2 * f.u * ‖q.reH‖ ∧ nearly_zero q.norm2 = false := by
  have hu := Fmt.u_le_of_p hp
  have hu0 := f.u_pos
  have hη := Fmt.eta_small hp
  have N2 : 1 / 4 ≤ ‖q.reH‖ ^ 2 := by nlinarith
  have hfd := (fin_squares hp q hq (by linarith)).2
  have hd0 : 0 ≤ (q.dot q).toReal := by
    obtain ⟨hκ, -, -⟩ := Fmt.kappa456 hp
    have k := (_root_.abs_le.1 (dot_err q hfd)).1
    have k1 : ((1 + f.u) ^ 4 - 1) * ‖q.reH‖ ^ 2 ≤ 1 / 4 * ‖q.reH‖ ^ 2 := mul_le_mul_of_nonneg_right (by linarith) (by positivity)
    have k2 : (1 + f.u) ^ 4 * (f.eta * 4) ≤ 2 * (f.u / 256 * 4) :=
      mul_le_mul (by linarith) (by linarith) (mul_nonneg f.eta_pos.le (by norm_num)) (by norm_num)
    linarith
  have hn : q.norm2.IsFin := (sqrt_rel hfd hd0).1
  have hηN : 16 * f.eta ≤ f.u * ‖q.reH‖ ^ 2 := by
    have := mul_le_mul_of_nonneg_left N2 hu0.le
    linarith
  have a1 := Quat.norm2_near hp q hn (by linarith) hηN
  refine ⟨hn, a1, big ?_⟩
  have := (_root_.abs_le.1 a1).1
  have h5 : f.u * ‖q.reH‖ ≤ 1 / 256 * ‖q.reH‖ := mul_le_mul_of_nonneg_right hu (norm_nonneg _)
  linarith

theorem Quat.normalize_step [Libm f] (hp : 8 ≤ f.p) {q : Quat (Flt f)} {z : ℍ[ℝ]} {g : ℝ} (hq : ∀ i, (q.comp i).IsFin)
    (hz : ‖z‖ = 1) (h : ‖q.reH - z‖ ≤ g - 1) (hg : g ≤ 3 / 2) :
    (q.normalized = true → q.normalize = some q) ∧
    (q.normalized = false → q.normalize = some { q.sdiv q.norm2 with normalized := true }) ∧
    (∀ i, ((q.sdiv q.norm2).comp i).IsFin) ∧ ‖(q.sdiv q.norm2).reH - z‖ ≤ 2 * (g - 1) + 5 * f.u := by
  have n := abs_norm_sub_norm_le q.reH z
  rw [hz] at n
  obtain ⟨n1, n2⟩ := _root_.abs_le.1 (n.trans h)
  obtain ⟨hn, a1, hz'⟩ := Quat.norm2_step hp hq (by linarith) (by linarith)
  obtain ⟨s1, s2⟩ := Quat.sdiv_near_norm hp q hq (by linarith) hn a1
  refine ⟨fun hf => by unfold Quat.normalize; rw [if_pos hf], fun hf => ?_, s1, ?_⟩
  · unfold Quat.normalize
    rw [if_neg (by rw [hf]; decide)]
    dsimp only
    rw [hz']
    rfl
  have t1 := norm_sub_le_norm_sub_add_norm_sub (q.sdiv q.norm2).reH (‖q.reH‖⁻¹ • q.reH) z
  have t2 := norm_sub_le_norm_sub_add_norm_sub (‖q.reH‖⁻¹ • q.reH) q.reH z
  have t3 : ‖‖q.reH‖⁻¹ • q.reH - q.reH‖ = |‖q.reH‖ - 1| := by
    have e : ‖q.reH‖⁻¹ • q.reH - q.reH = (‖q.reH‖⁻¹ - 1) • q.reH := by rw [sub_smul, one_smul]
    have hN : 0 < ‖q.reH‖ := by linarith
    rw [e, norm_smul, Real.norm_eq_abs, ← abs_of_pos hN, ← abs_mul, abs_of_pos hN, sub_mul, inv_mul_cancel₀ hN.ne', one_mul, abs_sub_comm]
  rw [t3] at t2
  linarith [n.trans h]

private theorem normalize_step' [Libm f] (hp : 8 ≤ f.p) {q : Quat (Flt f)} {z : ℍ[ℝ]} {g : ℝ} (hq : ∀ i, (q.comp i).IsFin)
    (hz : ‖z‖ = 1) (h : ‖q.reH - z‖ ≤ g - 1) (hg : g ≤ 3 / 2) :
    ∃ r, q.normalize = some r ∧ (∀ i, (r.comp i).IsFin) ∧ ‖r.reH - z‖ ≤ g ^ 2 * (1 + 9 * f.u) - 1 := by
  have hu0 := f.u_pos
  have g1 : 1 ≤ g := by have := norm_nonneg (q.reH - z); linarith
  have gg : 1 + 2 * (g - 1) ≤ g ^ 2 := by nlinarith
  have gu : f.u * 1 ≤ f.u * g ^ 2 := mul_le_mul_of_nonneg_left (by linarith) hu0.le
  obtain ⟨h1, h2, h3, h4⟩ := Quat.normalize_step hp hq hz h hg
  by_cases hf : q.normalized = true
  · exact ⟨q, h1 hf, hq, h.trans (by linarith)⟩
  · exact ⟨_, h2 (Bool.eq_false_iff.2 hf), h3, h4.trans (by linarith)⟩

theorem Quat.inverse_step [Libm f] (hp : 8 ≤ f.p) {q : Quat (Flt f)} {z : ℍ[ℝ]} {g : ℝ} (hq : ∀ i, (q.comp i).IsFin)
    (hz : ‖z‖ = 1) (h : ‖q.reH - z‖ ≤ g - 1) (hg : g ≤ 3 / 2) :
    ∃ r, q.inverse = some r ∧ (∀ i, (r.comp i).IsFin) ∧ ‖r.reH - z⁻¹‖ ≤ g ^ 2 * (1 + 9 * f.u) - 1 := by
  have hu := Fmt.u_le_of_p hp
  have hu0 := f.u_pos
  have hη := Fmt.eta_small hp
  have hη0 := f.eta_pos
  obtain ⟨hκ, -, -⟩ := Fmt.kappa456 hp
  have g1 : 1 ≤ g := by have := norm_nonneg (q.reH - z); linarith
  have gg : 1 + 2 * (g - 1) ≤ g ^ 2 := by nlinarith
  have gu : f.u * 1 ≤ f.u * g ^ 2 := mul_le_mul_of_nonneg_left (by linarith) hu0.le
  obtain ⟨c1, c2⟩ := conj_step hq hz h
  by_cases hf : q.normalized = true
  · exact ⟨q.conj, by simp only [Quat.inverse, hf]; rfl, c1, c2.trans (by linarith)⟩
  rw [Bool.not_eq_true] at hf
  have n := abs_norm_sub_norm_le q.reH z
  rw [hz] at n
  obtain ⟨n1, n2⟩ := _root_.abs_le.1 (n.trans h)
  have fa := (fin_squares hp q hq (by linarith)).1
  have ae := abs2_err q fa
  obtain ⟨N, hN⟩ : ∃ N, N = ‖q.reH‖ := ⟨_, rfl⟩
  obtain ⟨a, ha⟩ : ∃ a, a = q.abs2.toReal := ⟨_, rfl⟩
  rw [← hN] at n1 n2
  rw [← hN, ← ha] at ae
  have N2 : 1 / 4 ≤ N ^ 2 := by nlinarith
  have Np : 0 < N := by linarith
  have ae2 : |a - N ^ 2| ≤ 42 / 10 * f.u * N ^ 2 := by
    have k1 : ((1 + f.u) ^ 4 - 1) * N ^ 2 ≤ 404 / 100 * f.u * N ^ 2 := mul_le_mul_of_nonneg_right hκ (by positivity)
    have k2 : (1 + f.u) ^ 4 * (f.eta * 4) ≤ 102 / 100 * (f.u / 256 * 4) :=
      mul_le_mul (by linarith) (by linarith) (by positivity) (by norm_num)
    have k3 := mul_le_mul_of_nonneg_left N2 hu0.le
    linarith
  obtain ⟨b1, b2⟩ := _root_.abs_le.1 ae2
  have uN : f.u * N ^ 2 ≤ 1 / 256 * N ^ 2 := mul_le_mul_of_nonneg_right hu (by positivity)
  have a0 : 98 / 100 * N ^ 2 ≤ a := by linarith
  have ap : 0 < a := by linarith
  have nz : nearly_zero q.abs2 = false := big (by rw [← ha]; linarith)
  have ei : q.inverse = some (q.conj.sdiv q.abs2) := by
    simp only [Quat.inverse, hf, nz]; rfl
  have fv : ∀ i, ((q.conj.sdiv q.abs2).comp i).IsFin := by
    have k (i : Fin 4) : (q.conj.comp i / q.abs2).IsFin := by
      refine div_isFin (c1 i) fa (by rw [← ha]; exact ap.ne') (Fmt.range_of_p hp ?_)
      have := q.conj.comp_le_reH i
      rw [conj_reH, Quaternion.norm_star, ← hN] at this
      rw [← ha, abs_div, abs_of_pos ap, div_le_iff₀ ap]
      linarith
    exact four (k 0) (k 1) (k 2) (k 3)
  refine ⟨_, ei, fv, ?_⟩
  have v1 := (C158_scale q.conj q.abs2 fa).1 fv
  rw [conj_reH, ← ha, norm_smul, Quaternion.norm_star, ← hN, Real.norm_eq_abs, abs_of_pos (inv_pos.2 ap)] at v1
  have iN : 1 / N * N = 1 := by field_simp
  have i1 : a⁻¹ * N ≤ 103 / 100 * (1 / N) := by
    rw [inv_mul_eq_div, div_le_iff₀ ap]
    have : 103 / 100 * (1 / N) * a ≥ 103 / 100 * (1 / N) * (98 / 100 * N ^ 2) := mul_le_mul_of_nonneg_left a0 (by positivity)
    have e : 103 / 100 * (1 / N) * (98 / 100 * N ^ 2) = 10094 / 10000 * N := by field_simp; norm_num
    linarith
  have i2 : ‖a⁻¹ • star q.reH - (N ^ 2)⁻¹ • star q.reH‖ ≤ 433 / 100 * f.u * (1 / N) := by
    rw [← sub_smul, norm_smul, Quaternion.norm_star, ← hN, Real.norm_eq_abs]
    have e : a⁻¹ - (N ^ 2)⁻¹ = (N ^ 2 - a) / (a * N ^ 2) := by field_simp
    rw [e, abs_div, abs_sub_comm, abs_of_pos (by positivity : 0 < a * N ^ 2), div_mul_eq_mul_div, div_le_iff₀ (by positivity)]
    have k1 : |a - N ^ 2| * N ≤ 42 / 10 * f.u * N ^ 2 * N := mul_le_mul_of_nonneg_right ae2 Np.le
    have k2 : 433 / 100 * f.u * (1 / N) * (a * N ^ 2) = 433 / 100 * f.u * N * a := by field_simp
    have k3 : 433 / 100 * f.u * N * (98 / 100 * N ^ 2) ≤ 433 / 100 * f.u * N * a := mul_le_mul_of_nonneg_left a0 (by positivity)
    have k4 : 0 ≤ f.u * N ^ 3 := by positivity
    rw [k2]
    linarith
  have i3 : (N ^ 2)⁻¹ • star q.reH = (q.reH)⁻¹ := by
    have e : (q.reH)⁻¹ = (normSq q.reH)⁻¹ • star q.reH := rfl
    rw [e, normSq_eq_norm_mul_self, ← hN, sq]
  have q0 : q.reH ≠ 0 := norm_pos_iff.1 (by rw [← hN]; exact Np)
  have z0 : z ≠ 0 := norm_pos_iff.1 (by rw [hz]; norm_num)
  have i4 : ‖(q.reH)⁻¹ - z⁻¹‖ ≤ (g - 1) * (1 / N) := by
    have e : (q.reH)⁻¹ - z⁻¹ = (q.reH)⁻¹ * (z - q.reH) * z⁻¹ := by
      rw [mul_sub, sub_mul, mul_assoc, mul_inv_cancel₀ z0, mul_one, inv_mul_cancel₀ q0, one_mul]
    rw [e, norm_mul, norm_mul, norm_inv, norm_inv, hz, inv_one, mul_one, ← hN, norm_sub_rev, inv_eq_one_div, mul_comm]
    exact mul_le_mul_of_nonneg_right h (by positivity)
  obtain ⟨M, hM⟩ : ∃ M, M = 1 / (2 - g) := ⟨_, rfl⟩
  have gp : 0 < 2 - g := by linarith
  have i5 : 1 / N ≤ M := by rw [hM]; exact one_div_le_one_div_of_le gp (by linarith)
  have i8 : M ≤ g ^ 2 := by
    rw [hM, div_le_iff₀ gp]
    have k2 : 0 ≤ (g - 1) * (1 + g - g ^ 2) := mul_nonneg (by linarith) (by nlinarith)
    linarith
  have i6 : 2 / 3 ≤ 1 / N := by
    rw [le_div_iff₀ Np]
    linarith
  have i7 : (g - 1) * (1 / N) ≤ M - 1 := by
    have k := mul_le_mul_of_nonneg_left i5 (by linarith : 0 ≤ g - 1)
    have e : (g - 1) * M = M - 1 := by
      rw [hM]
      field_simp
      ring
    linarith
  have t1 := norm_sub_le_norm_sub_add_norm_sub (q.conj.sdiv q.abs2).reH (a⁻¹ • star q.reH) z⁻¹
  have t2 := norm_sub_le_norm_sub_add_norm_sub (a⁻¹ • star q.reH) ((N ^ 2)⁻¹ • star q.reH) z⁻¹
  rw [i3] at t2 i2
  have u1 := mul_le_mul_of_nonneg_left i1 hu0.le
  have u2 := mul_le_mul_of_nonneg_left (i5.trans i8) hu0.le
  have u3 := mul_le_mul_of_nonneg_left i6 hu0.le
  linarith

/-- **C165.** Every program of products, quotients, conjugates, negations, inverses and normalizations of quaternions that are within `δ` of
unit quaternions runs without a panic and without overflow, and its result is within `((1 + δ) (1 + 9 u)) ^ weight - 1` of the exact
one, a unit quaternion, as long as this bound is at most `1/2`. -/
theorem C165_programs [Libm f] (hp : 8 ≤ f.p) {δ : ℝ} (hδ : 0 ≤ δ) (e : QuatProgram f) (he : e.Valid δ)
    (hn : ((1 + δ) * (1 + 9 * f.u)) ^ e.weight ≤ 3 / 2) :
    ∃ q, e.run = .ok q ∧ (∀ i, (q.comp i).IsFin) ∧ ‖e.exact‖ = 1 ∧ ‖q.reH - e.exact‖ ≤ ((1 + δ) * (1 + 9 * f.u)) ^ e.weight - 1 := by
  have hu0 := f.u_pos
  obtain ⟨w, hw⟩ : ∃ w, w = 1 + 9 * f.u := ⟨_, rfl⟩
  obtain ⟨G, hG⟩ : ∃ G, G = (1 + δ) * w := ⟨_, rfl⟩
  rw [← hw, ← hG] at hn ⊢
  have w1 : 1 ≤ w := by linarith
  have wp : 0 < w := by linarith
  have G1 : 1 ≤ G := by rw [hG]; nlinarith
  have up {m n : ℕ} (h : m ≤ n) : G ^ m ≤ G ^ n := pow_le_pow_right₀ G1 h
  have le (x : ℝ) (h : 0 ≤ x) : x / w ≤ x := div_le_self h w1
  suffices h : ∃ q, e.run = .ok q ∧ (∀ i, (q.comp i).IsFin) ∧ ‖e.exact‖ = 1 ∧ ‖q.reH - e.exact‖ ≤ G ^ e.weight / w - 1 by
    obtain ⟨q, h1, h2, h3, h4⟩ := h
    have := le (G ^ e.weight) (by positivity)
    exact ⟨q, h1, h2, h3, by linarith⟩
  induction e with
  | leaf q z =>
    refine ⟨q, rfl, he.1, he.2.1, ?_⟩
    change ‖q.reH - z‖ ≤ G ^ 1 / w - 1
    rw [pow_one, hG, mul_div_assoc, div_self wp.ne']
    linarith [he.2.2]
  | mul a b iha ihb =>
    rw [QuatProgram.weight] at hn ⊢
    obtain ⟨q, h1, h2, h3, h4⟩ := iha he.1 ((up (Nat.le_add_right _ _)).trans hn)
    obtain ⟨r, k1, k2, k3, k4⟩ := ihb he.2 ((up (Nat.le_add_left _ _)).trans hn)
    have b1 := le _ (pow_nonneg (by linarith : 0 ≤ G) a.weight)
    have b2 := le _ (pow_nonneg (by linarith : 0 ≤ G) b.weight)
    have b3 := (up (Nat.le_add_right a.weight b.weight)).trans hn
    have b4 := (up (Nat.le_add_left b.weight a.weight)).trans hn
    obtain ⟨m1, m2⟩ := mul_step hp h2 k2 h3 k3 h4 k4 (by linarith) (by linarith)
    refine ⟨q.mul r, by rw [QuatProgram.run, h1, k1]; rfl, m1, by rw [QuatProgram.exact, norm_mul, h3, k3, one_mul], ?_⟩
    rw [← hw] at m2
    refine m2.trans (le_of_eq ?_)
    rw [pow_add]
    field_simp
  | div a b iha ihb =>
    rw [QuatProgram.weight] at hn ⊢
    have c1 : a.weight ≤ a.weight + 2 * b.weight := by omega
    have c2 : b.weight ≤ a.weight + 2 * b.weight := by omega
    have c3 : 2 * b.weight ≤ a.weight + 2 * b.weight := by omega
    obtain ⟨q, h1, h2, h3, h4⟩ := iha he.1 ((up c1).trans hn)
    obtain ⟨r, k1, k2, k3, k4⟩ := ihb he.2 ((up c2).trans hn)
    have b1 := le _ (pow_nonneg (by linarith : 0 ≤ G) a.weight)
    have b2 := le _ (pow_nonneg (by linarith : 0 ≤ G) b.weight)
    have b3 := (up c1).trans hn
    have b4 := (up c2).trans hn
    obtain ⟨s, s1, s2, s3⟩ := Quat.inverse_step hp k2 k3 k4 (by linarith)
    have e2 : (G ^ b.weight / w) ^ 2 * w = G ^ (2 * b.weight) / w := by
      rw [mul_comm 2, pow_mul]
      field_simp
    rw [← hw, e2] at s3
    have b5 := le _ (pow_nonneg (by linarith : 0 ≤ G) (2 * b.weight))
    have b6 := (up c3).trans hn
    have k3' : ‖(b.exact)⁻¹‖ = 1 := by rw [norm_inv, k3, inv_one]
    obtain ⟨m1, m2⟩ := mul_step hp h2 s2 h3 k3' h4 s3 (by linarith) (by linarith)
    refine ⟨q.mul s, ?_, m1, by rw [QuatProgram.exact, norm_mul, h3, k3', one_mul], ?_⟩
    · rw [QuatProgram.run, h1, k1]
      change (unwrapSome r.inverse >>= fun i => pure (q.mul i)) = _
      rw [s1]
      rfl
    rw [← hw] at m2
    refine m2.trans (le_of_eq ?_)
    rw [pow_add]
    field_simp
  | conj a ih =>
    obtain ⟨q, h1, h2, h3, h4⟩ := ih he hn
    obtain ⟨c1, c2⟩ := conj_step h2 h3 h4
    exact ⟨q.conj, by rw [QuatProgram.run, h1]; rfl, c1, by rw [QuatProgram.exact, norm_inv, h3, inv_one], c2⟩
  | neg a ih =>
    obtain ⟨q, h1, h2, h3, h4⟩ := ih he hn
    refine ⟨q.neg, by rw [QuatProgram.run, h1]; rfl, four (isFin_neg.2 (h2 0)) (isFin_neg.2 (h2 1)) (isFin_neg.2 (h2 2)) (isFin_neg.2 (h2 3)),
      by rw [QuatProgram.exact, norm_neg, h3], ?_⟩
    have e1 : q.neg.reH = -q.reH := by
      ext
      exacts [toReal_neg _, toReal_neg _, toReal_neg _, toReal_neg _]
    rw [QuatProgram.exact, e1, ← neg_sub', norm_neg]
    exact h4
  | inverse a ih =>
    rw [QuatProgram.weight] at hn ⊢
    have c1 : a.weight ≤ 2 * a.weight := by omega
    obtain ⟨q, h1, h2, h3, h4⟩ := ih he ((up c1).trans hn)
    have b1 := le _ (pow_nonneg (by linarith : 0 ≤ G) a.weight)
    have b3 := (up c1).trans hn
    obtain ⟨s, s1, s2, s3⟩ := Quat.inverse_step hp h2 h3 h4 (by linarith)
    refine ⟨s, ?_, s2, by rw [QuatProgram.exact, norm_inv, h3, inv_one], ?_⟩
    · rw [QuatProgram.run, h1]
      change unwrapSome q.inverse = _
      rw [s1]
      rfl
    · rw [← hw] at s3
      refine s3.trans (le_of_eq ?_)
      rw [mul_comm 2 a.weight, pow_mul]
      field_simp
  | normalize a ih =>
    rw [QuatProgram.weight] at hn ⊢
    have c1 : a.weight ≤ 2 * a.weight := by omega
    obtain ⟨q, h1, h2, h3, h4⟩ := ih he ((up c1).trans hn)
    have b1 := le _ (pow_nonneg (by linarith : 0 ≤ G) a.weight)
    have b3 := (up c1).trans hn
    obtain ⟨s, s1, s2, s3⟩ := normalize_step' hp h2 h3 h4 (by linarith)
    refine ⟨s, ?_, s2, h3, ?_⟩
    · rw [QuatProgram.run, h1]
      change unwrapSome q.normalize = _
      rw [s1]
      rfl
    · rw [← hw] at s3
      refine s3.trans (le_of_eq ?_)
      rw [mul_comm 2 a.weight, pow_mul]
      field_simp

/-- **C165.** Rotating a vector with the result of a program: close to rotating it with the exact unit quaternion. -/
theorem C165_rotate [Libm f] (hp : 8 ≤ f.p) {δ B : ℝ} (hδ : 0 ≤ δ) (e : QuatProgram f) (he : e.Valid δ)
    (hn : ((1 + δ) * (1 + 9 * f.u)) ^ e.weight ≤ 9 / 8) (hB : 1 / 8 ≤ B) (hBig : f.Big (20 * B)) (v : Vec 3 (Flt f))
    (hv : ∀ i, (v i).IsFin) (hv2 : ∀ i, |(v i).toReal| ≤ B) :
    let E := B * (37 / 5 * (((1 + δ) * (1 + 9 * f.u)) ^ e.weight - 1) + 74 * f.u)
    ∃ q, e.run = .ok q ∧ (∀ i, (q.mulVec v i).IsFin) ∧ (e.exact * v.reH * star e.exact).re = 0 ∧
      |(q.mulVec v 0).toReal - (e.exact * v.reH * star e.exact).imI| ≤ E ∧
      |(q.mulVec v 1).toReal - (e.exact * v.reH * star e.exact).imJ| ≤ E ∧
      |(q.mulVec v 2).toReal - (e.exact * v.reH * star e.exact).imK| ≤ E := by
  obtain ⟨q, h1, h2, h3, h4⟩ := C165_programs hp hδ e he (hn.trans (by norm_num))
  exact ⟨q, h1, C160_rotate hp hB hBig q v h2 e.exact h3 h4 (by linarith) hv hv2⟩

private theorem u32 : Fmt.f32.u = 1 / 2 ^ 24 := by
  unfold Fmt.u
  change (2 : ℝ) ^ (-(24 : ℤ)) = _
  norm_num

/-- The program `(i * j / k).normalize()` in `f32`: valid, with `δ = 0`, and its bound is small. -/
example : let i : Quat (Flt .f32) := ⟨0, ⟨![1, 0, 0]⟩, true⟩
    let j : Quat (Flt .f32) := ⟨0, ⟨![0, 1, 0]⟩, false⟩
    let k : Quat (Flt .f32) := ⟨0, ⟨![0, 0, 1]⟩, false⟩
    let e : QuatProgram .f32 := .normalize (.div (.mul (.leaf i ⟨0, 1, 0, 0⟩) (.leaf j ⟨0, 0, 1, 0⟩)) (.leaf k ⟨0, 0, 0, 1⟩))
    e.Valid 0 ∧ ((1 + 0) * (1 + 9 * Fmt.f32.u)) ^ e.weight ≤ 1 + 1 / 10 ^ 5 := by
  have n (q : ℍ[ℝ]) (h : q.re ^ 2 + q.imI ^ 2 + q.imJ ^ 2 + q.imK ^ 2 = 1) : ‖q‖ = 1 := by
    have h1 := Quaternion.normSq_eq_norm_mul_self q
    rw [Quaternion.normSq_def', h] at h1
    have h2 := norm_nonneg q
    nlinarith
  have o : (1 : Flt .f32).toReal = 1 := toReal_one
  have z : (0 : Flt .f32).toReal = 0 := toReal_zero
  refine ⟨⟨⟨⟨?_, n _ (by norm_num), ?_⟩, ⟨?_, n _ (by norm_num), ?_⟩⟩, ⟨?_, n _ (by norm_num), ?_⟩⟩, ?_⟩
  · exact four isFin_zero isFin_one isFin_zero isFin_zero
  · refine (norm_eq_zero.2 (sub_eq_zero.2 ?_)).le
    ext
    exacts [z, o, z, z]
  · exact four isFin_zero isFin_zero isFin_one isFin_zero
  · refine (norm_eq_zero.2 (sub_eq_zero.2 ?_)).le
    ext
    exacts [z, z, o, z]
  · exact four isFin_zero isFin_zero isFin_zero isFin_one
  · refine (norm_eq_zero.2 (sub_eq_zero.2 ?_)).le
    ext
    exacts [z, z, z, o]
  · rw [u32]
    change ((1 + 0) * (1 + 9 * (1 / 2 ^ 24 : ℝ))) ^ 8 ≤ _
    norm_num

end StaticMath

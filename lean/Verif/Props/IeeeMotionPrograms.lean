import Verif.Props.IeeeQuatPrograms
import Verif.Props.IeeeScrew
import Verif.Props.MotionPrograms

/-!
# C166: every program of rigid motions in floating point
-/

namespace StaticMath
open Flt Quaternion

variable {f : Fmt}

/-- Programs that combine rigid motions. A leaf is a dual quaternion of floats together with the motion it stands for. -/
inductive DualProgram (f : Fmt) : Type
  | leaf (x : DQuat (Flt f)) (y : DQuat ℝ)
  | mul (a b : DualProgram f)
  | conj (a : DualProgram f)
  | neg (a : DualProgram f)
  | inverse (a : DualProgram f)
  | normalize (a : DualProgram f)

namespace DualProgram

/-- The program run on floats. -/
noncomputable def run [Libm f] : DualProgram f → MayPanic (DQuat (Flt f))
  | leaf x _ => pure x
  | mul a b => do pure ((← a.run).mul (← b.run))
  | conj a => do pure (← a.run).conj
  | neg a => do pure (← a.run).neg
  | inverse a => do (← a.run).inverse
  | normalize a => do unwrapSome (← a.run).normalize

/-- The dual quaternion it stands for. -/
noncomputable def exact : DualProgram f → DQuat ℝ
  | leaf _ y => y
  | mul a b => a.exact.mul b.exact
  | conj a => a.exact.conj
  | neg a => a.exact.neg
  | inverse a => a.exact.conj
  | normalize a => a.exact

/-- The rigid motion as a matrix: products and inverses of the matrices of the leaves. -/
noncomputable def hom : DualProgram f → Matrix (Fin 4) (Fin 4) ℝ
  | leaf _ y => y.to_homogeneous.toM
  | mul a b => a.hom * b.hom
  | conj a => (a.hom)⁻¹
  | neg a => a.hom
  | inverse a => (a.hom)⁻¹
  | normalize a => a.hom

/-- Number of leaves. -/
def leaves : DualProgram f → ℕ
  | leaf _ _ => 1
  | mul a b => a.leaves + b.leaves
  | conj a => a.leaves
  | neg a => a.leaves
  | inverse a => a.leaves
  | normalize a => a.leaves

/-- Number of leaves, where an inverse multiplies by 5 and a normalization by 4. -/
def weight : DualProgram f → ℕ
  | leaf _ _ => 1
  | mul a b => a.weight + b.weight
  | conj a => a.weight
  | neg a => a.weight
  | inverse a => 5 * a.weight
  | normalize a => 4 * a.weight

/-- The leaves are within `δ` of motions with translations of length at most `2 P`. -/
def Valid (P δ : ℝ) : DualProgram f → Prop
  | leaf x y => x.Close y P δ
  | mul a b => a.Valid P δ ∧ b.Valid P δ
  | conj a => a.Valid P δ
  | neg a => a.Valid P δ
  | inverse a => a.Valid P δ
  | normalize a => a.Valid P δ

theorem leaves_pos (e : DualProgram f) : 1 ≤ e.leaves := by
  induction e <;> simp only [leaves] <;> omega

end DualProgram

private theorem four {P : Fin 4 → Prop} (h0 : P 0) (h1 : P 1) (h2 : P 2) (h3 : P 3) : ∀ i, P i := by
  intro i
  fin_cases i
  exacts [h0, h1, h2, h3]

private theorem neg_reH (q : Quat (Flt f)) : q.neg.reH = -q.reH := by
  ext
  exacts [toReal_neg _, toReal_neg _, toReal_neg _, toReal_neg _]

private theorem neg_fin {q : Quat (Flt f)} (h : ∀ i, (q.comp i).IsFin) : ∀ i, (q.neg.comp i).IsFin :=
  four (isFin_neg.2 (h 0)) (isFin_neg.2 (h 1)) (isFin_neg.2 (h 2)) (isFin_neg.2 (h 3))

private theorem inv_unit {z : ℍ[ℝ]} (hz : ‖z‖ = 1) : z⁻¹ = star z := by
  have h : normSq z = 1 := by rw [normSq_eq_norm_mul_self, hz, one_mul]
  have e : z⁻¹ = (normSq z)⁻¹ • star z := rfl
  rw [e, h, inv_one, one_smul]

/-- One product of quaternions of different sizes. -/
private theorem mul_scaled (hp : 8 ≤ f.p) {q r : Quat (Flt f)} {z w : ℍ[ℝ]} {A C B g k : ℝ} (hq : ∀ i, (q.comp i).IsFin)
    (hr : ∀ i, (r.comp i).IsFin) (hz : ‖z‖ ≤ A) (hw : ‖w‖ ≤ C) (h1 : ‖q.reH - z‖ ≤ A * (g - 1)) (h2 : ‖r.reH - w‖ ≤ C * (k - 1))
    (hg : 1 ≤ g) (hk : 1 ≤ k) (hA : 0 ≤ A) (_hC : 0 ≤ C) (hAC : 1 / 8 ≤ A * C) (hB : 1 ≤ B) (hAB : A * g ≤ B) (hCB : C * k ≤ B)
    (hov : 16 * B ^ 2 ≤ (2 : ℝ) ^ f.emax) :
    (∀ i, ((q.mul r).comp i).IsFin) ∧ ‖(q.mul r).reH - z * w‖ ≤ A * C * (g * k * (1 + 9 * f.u) - 1) := by
  have hu := Fmt.u_le_of_p hp
  have hu0 := f.u_pos
  have hη := Fmt.eta_small hp
  have hη0 := f.eta_pos
  obtain ⟨hκ, -, -⟩ := Fmt.kappa456 hp
  have hqn : ‖q.reH‖ ≤ A * g := by
    have := norm_le_norm_add_norm_sub' q.reH z
    linarith
  have hrn : ‖r.reH‖ ≤ C * k := by
    have := norm_le_norm_add_norm_sub' r.reH w
    linarith
  have hfin : ∀ i, ((q.mul r).comp i).IsFin := by
    refine (C105_no_overflow q r ⟨fun _ => 0⟩ B hB (fun i => ⟨hq i, (q.comp_le_reH i).trans (hqn.trans hAB)⟩)
      (fun i => ⟨hr i, (r.comp_le_reH i).trans (hrn.trans hCB)⟩) fun i => ⟨isFin_zero, ?_⟩).1 ?_
    · change |(0 : Flt f).toReal| ≤ B
      rw [toReal_zero, abs_zero]; linarith
    · have e : (2 : ℝ) ^ (f.emax + 1) = 2 * (2 : ℝ) ^ f.emax := by rw [zpow_add₀ (by norm_num), zpow_one, mul_comm]
      rw [e]
      have b0 : 0 < B ^ 2 := by positivity
      have : (1 + f.u) ^ 4 * (8 * B ^ 2) ≤ 2 * (8 * B ^ 2) := mul_le_mul_of_nonneg_right (by linarith) (by positivity)
      linarith
  refine ⟨hfin, ?_⟩
  have hE := (C105_product q r hfin).2.1
  have hNN : ‖q.reH‖ * ‖r.reH‖ ≤ A * g * (C * k) := mul_le_mul hqn hrn (norm_nonneg _) (by positivity)
  have hdec : (q.mul r).reH - z * w = ((q.mul r).reH - q.reH * r.reH) + ((q.reH - z) * r.reH + z * (r.reH - w)) := by noncomm_ring
  have n1 : ‖(q.reH - z) * r.reH + z * (r.reH - w)‖ ≤ A * (g - 1) * (C * k) + A * (C * (k - 1)) := by
    refine (norm_add_le _ _).trans ?_
    rw [norm_mul, norm_mul]
    exact add_le_add (mul_le_mul h1 hrn (norm_nonneg _) ((norm_nonneg _).trans h1)) (mul_le_mul hz h2 (norm_nonneg _) hA)
  have n2 : ‖(q.mul r).reH - q.reH * r.reH‖ ≤ 9 * f.u * (A * g * (C * k)) := by
    refine hE.trans ?_
    have a1 : ((1 + f.u) ^ 4 - 1) * (‖q.reH‖ * ‖r.reH‖) ≤ 404 / 100 * f.u * (A * g * (C * k)) :=
      mul_le_mul hκ hNN (by positivity) (by positivity)
    have a2 : (1 + f.u) ^ 4 * (f.eta * 4) ≤ 2 * (f.u / 256 * 4) :=
      mul_le_mul (by linarith) (by linarith) (by positivity) (by norm_num)
    have a3 : 1 / 8 ≤ A * g * (C * k) := by
      have gk : 1 ≤ g * k := by nlinarith
      have e : A * g * (C * k) = A * C * (g * k) := by ring
      rw [e]
      have := mul_le_mul hAC gk zero_le_one (by positivity)
      linarith
    have a4 := mul_le_mul_of_nonneg_left a3 hu0.le
    linarith
  rw [hdec]
  refine (norm_add_le _ _).trans ((add_le_add n2 n1).trans (le_of_eq ?_))
  ring

private theorem Close.neg {x : DQuat (Flt f)} {y : DQuat ℝ} {P ε : ℝ} (h : x.Close y P ε) : x.neg.Close y.neg P ε := by
  have e1 : x.neg.real.reH = -x.real.reH := neg_reH _
  have e2 : x.neg.dual.reH = -x.dual.reH := neg_reH _
  have e3 : y.neg.q_real.toH = -y.q_real.toH := Quat.toH_neg _
  have e4 : y.neg.q_dual.toH = -y.q_dual.toH := Quat.toH_neg _
  refine ⟨fun i => ⟨neg_fin (fun i => (h.fin i).1) i, neg_fin (fun i => (h.fin i).2) i⟩, ⟨?_, ?_⟩, ?_, ?_, ?_⟩
  · rw [e3, Quaternion.normSq_neg, h.motion.norm]
  · rw [e3, e4, star_neg, neg_mul_neg]
    exact h.motion.orth
  · rw [e4, norm_neg]
    exact h.size
  · rw [e1, e3, ← neg_sub', norm_neg]
    exact h.real
  · rw [e2, e4, ← neg_sub', norm_neg]
    exact h.dual

private theorem inverse_close [Libm f] (hp : 8 ≤ f.p) {x : DQuat (Flt f)} {y : DQuat ℝ} {P g : ℝ} (h : x.Close y P (g - 1))
    (hP : 1 / 8 ≤ P) (hg : g ^ 5 * (1 + 9 * f.u) ^ 4 ≤ 3 / 2) (hov : 16 * (2 + 2 * P) ^ 2 ≤ (2 : ℝ) ^ f.emax) :
    ∃ r, x.inverse = .ok r ∧ r.Close y.conj P (g ^ 5 * (1 + 9 * f.u) ^ 4 - 1) := by
  have hu0 := f.u_pos
  obtain ⟨x1, x2, x3, x4⟩ := h.norms
  have g1 : 1 ≤ g := by linarith
  obtain ⟨w, hw⟩ : ∃ w, w = 1 + 9 * f.u := ⟨_, rfl⟩
  rw [← hw] at hg ⊢
  have w1 : 1 ≤ w := by linarith
  have W1 : 1 ≤ w ^ 4 := one_le_pow₀ w1
  have gle : g ≤ g ^ 5 * w ^ 4 := by
    have a : g ^ 1 ≤ g ^ 5 := pow_le_pow_right₀ g1 (by norm_num)
    rw [pow_one] at a
    have := mul_le_mul a W1 zero_le_one (by positivity)
    linarith
  by_cases hf : x.normalized = true
  · exact ⟨x.conj, by simp only [DQuat.inverse, hf]; rfl, h.conj.mono le_rfl (by linarith)⟩
  have hz := Quat.unit_norm h.motion.norm
  obtain ⟨r, r1, r2, r3⟩ := Quat.inverse_step hp (q := x.q_real) (fun i => (h.fin i).1) hz h.real (by linarith)
  rw [← hw] at r3
  have e : x.inverse = .ok (DQuat.new r ((r.neg.mul x.q_dual).mul r)) := by
    unfold DQuat.inverse
    rw [if_neg hf, r1]
    rfl
  have k1 : 1 ≤ g ^ 2 * w := by
    have := mul_le_mul (one_le_pow₀ g1 : 1 ≤ g ^ 2) w1 zero_le_one (by positivity)
    linarith
  have zi : ‖(y.q_real.toH)⁻¹‖ = 1 := by rw [norm_inv, hz, inv_one]
  have b1 : g ^ 2 * w ≤ g ^ 5 * w ^ 4 := by
    have a1 : g ^ 2 ≤ g ^ 5 := pow_le_pow_right₀ g1 (by norm_num)
    have a2 : w ^ 1 ≤ w ^ 4 := pow_le_pow_right₀ w1 (by norm_num)
    rw [pow_one] at a2
    exact mul_le_mul a1 a2 (by linarith) (by positivity)
  have b2 : g ^ 2 * w * g * (1 + 9 * f.u) ≤ g ^ 5 * w ^ 4 := by
    have a1 : g ^ 3 ≤ g ^ 5 := pow_le_pow_right₀ g1 (by norm_num)
    have a2 : w ^ 2 ≤ w ^ 4 := pow_le_pow_right₀ w1 (by norm_num)
    have := mul_le_mul a1 a2 (by positivity) (by positivity)
    rw [← hw]
    linarith
  have b3 : 1 ≤ g ^ 2 * w * g * (1 + 9 * f.u) := by
    rw [← hw]
    have a1 : 1 ≤ g ^ 3 := one_le_pow₀ g1
    have a2 : 1 ≤ w ^ 2 := one_le_pow₀ w1
    have := mul_le_mul a1 a2 zero_le_one (by positivity)
    linarith
  obtain ⟨m1, m2⟩ := mul_scaled hp (q := r.neg) (r := x.q_dual) (z := -(y.q_real.toH)⁻¹) (w := y.q_dual.toH) (A := 1) (C := P) (B := 2 + 2 * P)
    (g := g ^ 2 * w) (k := g) (neg_fin r2) (fun i => (h.fin i).2) (by rw [norm_neg, zi]) h.size
    (by rw [neg_reH, ← neg_sub', norm_neg, one_mul]; exact r3) h.dual k1 g1 zero_le_one x4 (by linarith) (by linarith) (by linarith)
    (by nlinarith) hov
  rw [one_mul] at m2
  obtain ⟨m3, m4⟩ := mul_scaled hp (q := r.neg.mul x.q_dual) (r := r) (z := -(y.q_real.toH)⁻¹ * y.q_dual.toH) (w := (y.q_real.toH)⁻¹) (A := P) (C := 1)
    (B := 2 + 2 * P) (g := g ^ 2 * w * g * (1 + 9 * f.u)) (k := g ^ 2 * w) m1 r2
    (by rw [norm_mul, norm_neg, zi, one_mul]; exact h.size) zi.le m2 (by rw [one_mul]; exact r3) b3 k1 x4 zero_le_one
    (by linarith) (by linarith) (by nlinarith) (by linarith) hov
  have yc1 : y.conj.q_real.toH = (y.q_real.toH)⁻¹ := by rw [inv_unit hz]; exact Quat.toH_conj _
  have yc2 : y.conj.q_dual.toH = -(y.q_real.toH)⁻¹ * y.q_dual.toH * (y.q_real.toH)⁻¹ := by
    have c2 : y.conj.q_dual.toH = star y.q_dual.toH := Quat.toH_conj _
    have o := h.motion.orth
    rw [c2, inv_unit hz]
    have o2 : y.q_real.toH * star y.q_dual.toH = -(y.q_dual.toH * star y.q_real.toH) := by
      have s : star (y.q_dual.toH * star y.q_real.toH) = y.q_real.toH * star y.q_dual.toH := by rw [star_mul, star_star]
      rw [← s]
      ext
      · have : (y.q_dual.toH * star y.q_real.toH).re = 0 := by
          simp only [Quaternion.re_mul, Quaternion.re_star, Quaternion.imI_star, Quaternion.imJ_star, Quaternion.imK_star] at o ⊢
          linarith
        rw [Quaternion.re_star, Quaternion.re_neg, this, neg_zero]
      · rw [Quaternion.imI_star, Quaternion.imI_neg]
      · rw [Quaternion.imJ_star, Quaternion.imJ_neg]
      · rw [Quaternion.imK_star, Quaternion.imK_neg]
    have u1 := star_mul_self_unit h.motion.norm
    calc star y.q_dual.toH = star y.q_real.toH * y.q_real.toH * star y.q_dual.toH := by rw [u1, one_mul]
      _ = star y.q_real.toH * (y.q_real.toH * star y.q_dual.toH) := mul_assoc _ _ _
      _ = _ := by rw [o2, mul_neg, neg_mul, neg_mul, mul_assoc]
  refine ⟨_, e, ⟨fun i => ⟨r2 i, m3 i⟩, h.conj.motion, h.conj.size, ?_, ?_⟩⟩
  · rw [yc1]
    exact r3.trans (by linarith)
  · rw [yc2]
    refine m4.trans (le_of_eq ?_)
    rw [← hw]
    ring

private theorem normalize_close [Libm f] (hp : 8 ≤ f.p) {x : DQuat (Flt f)} {y : DQuat ℝ} {P g : ℝ} (h : x.Close y P (g - 1))
    (hP : 1 / 8 ≤ P) (hg : g ^ 4 * (1 + 9 * f.u) ≤ 3 / 2) (hov : 16 * (2 + 2 * P) ^ 2 ≤ (2 : ℝ) ^ f.emax) :
    ∃ r, x.normalize = some r ∧ r.Close y P (g ^ 4 * (1 + 9 * f.u) - 1) := by
  have hu0 := f.u_pos
  have hu := Fmt.u_le_of_p hp
  have hη := Fmt.eta_small hp
  have hη0 := f.eta_pos
  obtain ⟨x1, x2, x3, x4⟩ := h.norms
  have g1 : 1 ≤ g := by linarith
  have G4 : 1 ≤ g ^ 4 := one_le_pow₀ g1
  have g4 : g ≤ g ^ 4 := by
    have := pow_le_pow_right₀ g1 (by norm_num : 1 ≤ 4)
    rwa [pow_one] at this
  have g34 : g ^ 3 ≤ g ^ 4 := pow_le_pow_right₀ g1 (by norm_num)
  have gu : f.u * 1 ≤ f.u * g ^ 4 := mul_le_mul_of_nonneg_left G4 hu0.le
  have gle : g ≤ 3 / 2 := by linarith
  by_cases hf : x.normalized = true
  · exact ⟨x, by unfold DQuat.normalize; rw [if_pos hf], h.mono le_rfl (by linarith)⟩
  have hz := Quat.unit_norm h.motion.norm
  obtain ⟨-, -, s1, s2⟩ := Quat.normalize_step hp (q := x.q_real) (fun i => (h.fin i).1) hz h.real gle
  have n := abs_norm_sub_norm_le x.q_real.reH y.q_real.toH
  rw [hz] at n
  obtain ⟨n1, n2⟩ := _root_.abs_le.1 (n.trans h.real)
  obtain ⟨fn, a1, nz⟩ := Quat.norm2_step hp (q := x.q_real) (fun i => (h.fin i).1) (by linarith) (by linarith)
  obtain ⟨N, hN⟩ : ∃ N, N = ‖x.q_real.reH‖ := ⟨_, rfl⟩
  obtain ⟨a, ha⟩ : ∃ a, a = x.q_real.norm2.toReal := ⟨_, rfl⟩
  rw [← hN] at n1 n2 a1
  rw [← ha] at a1
  have Np : 0 < N := by linarith
  obtain ⟨b1, b2⟩ := _root_.abs_le.1 a1
  have uN : f.u * N ≤ 1 / 256 * N := mul_le_mul_of_nonneg_right hu Np.le
  have a0 : 98 / 100 * N ≤ a := by linarith
  have ap : 0 < a := by linarith
  have e : x.normalize = some ⟨x.q_real.sdiv x.q_real.norm2, x.q_dual.sdiv x.q_real.norm2, true⟩ := by
    unfold DQuat.normalize
    rw [if_neg hf]
    dsimp only
    rw [nz]
    rfl
  have fd : ∀ i, ((x.q_dual.sdiv x.q_real.norm2).comp i).IsFin := by
    have k (i : Fin 4) : (x.q_dual.comp i / x.q_real.norm2).IsFin := by
      refine div_isFin (h.fin i).2 fn (by rw [← ha]; exact ap.ne') ?_
      have e2 : (2 : ℝ) ^ (f.emax + 1) = 2 * (2 : ℝ) ^ f.emax := by rw [zpow_add₀ (by norm_num), zpow_one, mul_comm]
      have k1 : |(x.q_dual.comp i).toReal / x.q_real.norm2.toReal| ≤ 4 * P := by
        have c := x.q_dual.comp_le_reH i
        have c2 : ‖x.q_dual.reH‖ ≤ P * g := by
          refine x2.trans (le_of_eq ?_)
          ring
        rw [← ha, abs_div, abs_of_pos ap, div_le_iff₀ ap]
        have c3 : P * g ≤ P * (3 / 2) := mul_le_mul_of_nonneg_left gle x4
        have c4 : 4 * P * (49 / 100) ≤ 4 * P * a := mul_le_mul_of_nonneg_left (by linarith) (by linarith)
        linarith
      have k2 : (1 + f.u) * |(x.q_dual.comp i).toReal / x.q_real.norm2.toReal| ≤ 2 * (4 * P) :=
        mul_le_mul (by linarith) k1 (abs_nonneg _) (by norm_num)
      rw [e2]
      nlinarith
    exact four (k 0) (k 1) (k 2) (k 3)
  refine ⟨_, e, ⟨fun i => ⟨s1 i, fd i⟩, h.motion, h.size, ?_, ?_⟩⟩
  · have gg : 1 + 2 * (g - 1) ≤ g ^ 2 := by nlinarith
    have g24 : g ^ 2 ≤ g ^ 4 := pow_le_pow_right₀ g1 (by norm_num)
    exact s2.trans (by linarith)
  have v1 := (C158_scale x.q_dual x.q_real.norm2 fn).1 fd
  rw [← ha, norm_smul, Real.norm_eq_abs, abs_of_pos (inv_pos.2 ap)] at v1
  obtain ⟨d, hd⟩ : ∃ d, d = ‖x.q_dual.reH‖ := ⟨_, rfl⟩
  have d1 : d ≤ P * g := by
    rw [hd]
    exact x2.trans (le_of_eq (by ring))
  have d0 : 0 ≤ d := by rw [hd]; exact norm_nonneg _
  rw [← hd] at v1
  obtain ⟨M, hM⟩ : ∃ M, M = 1 / (2 - g) := ⟨_, rfl⟩
  have gp : 0 < 2 - g := by linarith
  have i5 : 1 / N ≤ M := by rw [hM]; exact one_div_le_one_div_of_le gp (by linarith)
  have i8 : M ≤ g ^ 2 := by
    rw [hM, div_le_iff₀ gp]
    have k2 : 0 ≤ (g - 1) * (1 + g - g ^ 2) := mul_nonneg (by linarith) (by nlinarith)
    linarith
  have i9 : 1 / N ≤ g ^ 2 := i5.trans i8
  have iN : 0 < 1 / N := by positivity
  have i1 : a⁻¹ ≤ 103 / 100 * (1 / N) := by
    rw [inv_le_iff_one_le_mul₀ ap]
    have : 103 / 100 * (1 / N) * (98 / 100 * N) ≤ 103 / 100 * (1 / N) * a := mul_le_mul_of_nonneg_left a0 (by positivity)
    have e : 103 / 100 * (1 / N) * (98 / 100 * N) = 10094 / 10000 := by field_simp; norm_num
    linarith
  have i2 : ‖a⁻¹ • x.q_dual.reH - N⁻¹ • x.q_dual.reH‖ ≤ 36 / 10 * f.u * (1 / N * d) := by
    rw [← sub_smul, norm_smul, ← hd, Real.norm_eq_abs, ← mul_assoc]
    refine mul_le_mul_of_nonneg_right ?_ d0
    have e : a⁻¹ - N⁻¹ = (N - a) / (a * N) := by field_simp
    rw [e, abs_div, abs_sub_comm, abs_of_pos (by positivity : 0 < a * N), div_le_iff₀ (by positivity)]
    have k2 : 36 / 10 * f.u * (1 / N) * (a * N) = 36 / 10 * f.u * a := by field_simp
    have k3 := mul_le_mul_of_nonneg_left a0 (by positivity : 0 ≤ 36 / 10 * f.u)
    have k4 : 0 ≤ f.u * N := by positivity
    rw [k2]
    linarith
  have i3 : ‖N⁻¹ • x.q_dual.reH - y.q_dual.toH‖ ≤ P * (2 * (g - 1) * (1 / N)) := by
    have e : N⁻¹ • x.q_dual.reH - y.q_dual.toH = N⁻¹ • (x.q_dual.reH - y.q_dual.toH) + (N⁻¹ - 1) • y.q_dual.toH := by
      rw [smul_sub, sub_smul, one_smul]
      abel
    rw [e]
    refine (norm_add_le _ _).trans ?_
    rw [norm_smul, norm_smul, Real.norm_eq_abs, Real.norm_eq_abs, abs_of_pos (inv_pos.2 Np), inv_eq_one_div]
    have k1 : 1 / N * ‖x.q_dual.reH - y.q_dual.toH‖ ≤ 1 / N * (P * (g - 1)) := mul_le_mul_of_nonneg_left h.dual iN.le
    have k2 : |1 / N - 1| ≤ (g - 1) * (1 / N) := by
      have e : 1 / N - 1 = (1 - N) * (1 / N) := by field_simp
      rw [e, abs_mul, abs_of_pos iN]
      refine mul_le_mul_of_nonneg_right ?_ iN.le
      rw [_root_.abs_le]
      constructor <;> linarith
    have k3 : |1 / N - 1| * ‖y.q_dual.toH‖ ≤ (g - 1) * (1 / N) * P := mul_le_mul k2 h.size (norm_nonneg _) (by positivity)
    linarith
  have i7 : 2 * (g - 1) * (1 / N) ≤ g ^ 4 - 1 := by
    have k := mul_le_mul_of_nonneg_left i5 (by linarith : 0 ≤ g - 1)
    have e : (g - 1) * M = M - 1 := by
      rw [hM]
      field_simp
      ring
    have k3 : 0 ≤ (g ^ 2 - 1) ^ 2 := sq_nonneg _
    linarith
  have dN : 1 / N * d ≤ g ^ 4 * P := by
    have k1 : 1 / N * d ≤ g ^ 2 * (P * g) := mul_le_mul i9 d1 d0 (by positivity)
    have k2 := mul_le_mul_of_nonneg_right g34 x4
    linarith
  have t1 := norm_sub_le_norm_sub_add_norm_sub (x.q_dual.sdiv x.q_real.norm2).reH (a⁻¹ • x.q_dual.reH) y.q_dual.toH
  have t2 := norm_sub_le_norm_sub_add_norm_sub (a⁻¹ • x.q_dual.reH) (N⁻¹ • x.q_dual.reH) y.q_dual.toH
  have u1 := mul_le_mul_of_nonneg_left (mul_le_mul_of_nonneg_right i1 d0) hu0.le
  have u2 := mul_le_mul_of_nonneg_left dN hu0.le
  have u3 := mul_le_mul_of_nonneg_left i7 x4
  have u4 : 1 / 8 * 1 ≤ P * g ^ 4 := mul_le_mul hP G4 zero_le_one x4
  have u5 := mul_le_mul_of_nonneg_left u4 hu0.le
  change ‖(x.q_dual.sdiv x.q_real.norm2).reH - y.q_dual.toH‖ ≤ _
  linarith

/-- **C166.** Every program of products, conjugates, negations, inverses and normalizations of float dual quaternions that are within `δ`
of rigid motions runs without a panic and without overflow, and its result is within `((1 + δ) (1 + 11 u)) ^ weight - 1` of the exact
motion (dual part: times `P` and the number of leaves). -/
theorem C166_programs [Libm f] (hp : 8 ≤ f.p) {P δ : ℝ} (hδ : 0 ≤ δ) (hP : 1 / 8 ≤ P) (e : DualProgram f) (he : e.Valid P δ)
    (hn : ((1 + δ) * (1 + 11 * f.u)) ^ e.weight ≤ 3 / 2) (hov : 16 * (2 + 2 * (e.leaves * P)) ^ 2 ≤ (2 : ℝ) ^ f.emax) :
    ∃ x, e.run = .ok x ∧ x.Close e.exact (e.leaves * P) (((1 + δ) * (1 + 11 * f.u)) ^ e.weight - 1) := by
  have hu0 := f.u_pos
  have hu := Fmt.u_le_of_p hp
  obtain ⟨w, hw⟩ : ∃ w, w = 1 + 11 * f.u := ⟨_, rfl⟩
  obtain ⟨G, hG⟩ : ∃ G, G = (1 + δ) * w := ⟨_, rfl⟩
  rw [← hw, ← hG] at hn ⊢
  have w1 : 1 ≤ w := by linarith
  have w0 : 1 + 9 * f.u ≤ w := by linarith
  have wp : 0 < w := by linarith
  have G1 : 1 ≤ G := by rw [hG]; nlinarith
  have Gp : 0 < G := by linarith
  have up {m n : ℕ} (h : m ≤ n) : G ^ m ≤ G ^ n := pow_le_pow_right₀ G1 h
  have le (x : ℝ) (h : 0 ≤ x) : x / w ≤ x := div_le_self h w1
  suffices h : ∃ x, e.run = .ok x ∧ x.Close e.exact (e.leaves * P) (G ^ e.weight / w - 1) by
    obtain ⟨x, h1, h2⟩ := h
    have := le (G ^ e.weight) (by positivity)
    exact ⟨x, h1, h2.mono le_rfl (by linarith)⟩
  have P0 : 0 ≤ P := by linarith
  have lP (a : DualProgram f) : 1 / 8 ≤ a.leaves * P := by
    have h1 : (1 : ℝ) ≤ a.leaves := by exact_mod_cast a.leaves_pos
    have := mul_le_mul_of_nonneg_right h1 P0
    linarith
  induction e with
  | leaf x y =>
    refine ⟨x, rfl, ?_⟩
    change x.Close y ((1 : ℕ) * P) (G ^ 1 / w - 1)
    rw [pow_one, hG, mul_div_assoc, div_self wp.ne', mul_one, add_sub_cancel_left, Nat.cast_one, one_mul]
    exact he
  | mul a b iha ihb =>
    rw [DualProgram.weight] at hn ⊢
    rw [DualProgram.leaves] at hov ⊢
    push_cast at hov ⊢
    have la := lP a
    have lb := lP b
    have ova : 16 * (2 + 2 * (a.leaves * P)) ^ 2 ≤ (2 : ℝ) ^ f.emax := le_trans (by gcongr; linarith) hov
    have ovb : 16 * (2 + 2 * (b.leaves * P)) ^ 2 ≤ (2 : ℝ) ^ f.emax := le_trans (by gcongr; linarith) hov
    obtain ⟨x, h1, h2⟩ := iha he.1 ova ((up (Nat.le_add_right _ _)).trans hn)
    obtain ⟨y, k1, k2⟩ := ihb he.2 ovb ((up (Nat.le_add_left _ _)).trans hn)
    have bp : (0 : ℝ) < b.leaves := by exact_mod_cast b.leaves_pos
    have e1 : (a.leaves : ℝ) / b.leaves * (b.leaves * P) = a.leaves * P := by field_simp
    have e2 : ((a.leaves : ℝ) / b.leaves + 1) * (b.leaves * P) = (a.leaves + b.leaves) * P := by field_simp
    have e3 : G ^ a.weight / w * ((1 + (G ^ b.weight / w - 1)) * w) = G ^ (a.weight + b.weight) / w := by
      rw [pow_add]
      field_simp
      ring
    have b1 := le _ (pow_nonneg Gp.le (a.weight + b.weight))
    have m := DQuat.Close.mul hp (x := x) (a := y) (k := (a.leaves : ℝ) / b.leaves) (P := b.leaves * P) (G := G ^ a.weight / w)
      (δ := G ^ b.weight / w - 1) (by positivity) lb (by rw [e1]; exact h2) k2 (by rw [← hw, e3]; linarith) (by rw [mul_assoc 2, e2]; exact hov)
    rw [e2, ← hw, e3] at m
    exact ⟨x.mul y, by rw [DualProgram.run, h1, k1]; rfl, m⟩
  | conj a ih =>
    obtain ⟨x, h1, h2⟩ := ih he hov hn
    exact ⟨x.conj, by rw [DualProgram.run, h1]; rfl, h2.conj⟩
  | neg a ih =>
    obtain ⟨x, h1, h2⟩ := ih he hov hn
    exact ⟨x.neg, by rw [DualProgram.run, h1]; rfl, Close.neg h2⟩
  | inverse a ih =>
    rw [DualProgram.weight] at hn ⊢
    obtain ⟨x, h1, h2⟩ := ih he hov ((up (by omega)).trans hn)
    have e3 : (G ^ a.weight / w) ^ 5 * w ^ 4 = G ^ (5 * a.weight) / w := by
      rw [mul_comm 5, pow_mul]
      field_simp
    have b1 := le _ (pow_nonneg Gp.le (5 * a.weight))
    have b2 : (G ^ a.weight / w) ^ 5 * (1 + 9 * f.u) ^ 4 ≤ (G ^ a.weight / w) ^ 5 * w ^ 4 :=
      mul_le_mul_of_nonneg_left (pow_le_pow_left₀ (by positivity) w0 4) (by positivity)
    obtain ⟨r, r1, r2⟩ := inverse_close hp h2 (lP a) (by linarith) hov
    exact ⟨r, by rw [DualProgram.run, h1]; exact r1, r2.mono le_rfl (by linarith)⟩
  | normalize a ih =>
    rw [DualProgram.weight] at hn ⊢
    obtain ⟨x, h1, h2⟩ := ih he hov ((up (by omega)).trans hn)
    have g1 : 1 ≤ G ^ a.weight / w := by have := h2.norms.2.2.1; linarith
    have e3 : (G ^ a.weight / w) ^ 4 * w * w ^ 2 = G ^ (4 * a.weight) / w := by
      rw [mul_comm 4, pow_mul]
      field_simp
    have b1 := le _ (pow_nonneg Gp.le (4 * a.weight))
    have b2 : (G ^ a.weight / w) ^ 4 * (1 + 9 * f.u) ≤ (G ^ a.weight / w) ^ 4 * w :=
      mul_le_mul_of_nonneg_left w0 (by positivity)
    have b3 : (G ^ a.weight / w) ^ 4 * w * 1 ≤ (G ^ a.weight / w) ^ 4 * w * w ^ 2 :=
      mul_le_mul_of_nonneg_left (one_le_pow₀ w1) (by positivity)
    obtain ⟨r, r1, r2⟩ := normalize_close hp h2 (lP a) (by linarith) hov
    refine ⟨r, ?_, r2.mono le_rfl (by linarith)⟩
    rw [DualProgram.run, h1]
    change unwrapSome x.normalize = _
    rw [r1]
    rfl

private theorem exact_motion [Libm f] {P δ : ℝ} (e : DualProgram f) (he : e.Valid P δ) : e.exact.IsMotion ∧ e.exact.to_homogeneous.toM = e.hom := by
  have cj {y : DQuat ℝ} (h : y.IsMotion) : y.conj.IsMotion := by
    have h1 : y.conj.q_real.toH = star y.q_real.toH := Quat.toH_conj _
    have h2 : y.conj.q_dual.toH = star y.q_dual.toH := Quat.toH_conj _
    refine ⟨by rw [h1, Quaternion.normSq_star]; exact h.norm, ?_⟩
    have := h.orth
    rw [h1, h2, star_star]
    simp only [Quaternion.re_mul, Quaternion.re_star, Quaternion.imI_star, Quaternion.imJ_star, Quaternion.imK_star] at this ⊢
    linarith
  induction e with
  | leaf x y => exact ⟨he.motion, rfl⟩
  | mul a b iha ihb =>
    obtain ⟨h1, h2⟩ := iha he.1
    obtain ⟨k1, k2⟩ := ihb he.2
    refine ⟨h1.mul k1, ?_⟩
    rw [DualProgram.exact, (C62_product_partial _ _ h1 k1 V3.zero).2.2.1, M44.toM_mul, h2, k2]
    rfl
  | conj a ih =>
    obtain ⟨h1, h2⟩ := ih he
    refine ⟨cj h1, ?_⟩
    have := h1.hom_mul_conj
    rw [h2] at this
    exact (Matrix.inv_eq_right_inv this).symm
  | neg a ih =>
    obtain ⟨h1, h2⟩ := ih he
    have n1 : a.exact.neg.q_real.toH = -a.exact.q_real.toH := Quat.toH_neg _
    have n2 : a.exact.neg.q_dual.toH = -a.exact.q_dual.toH := Quat.toH_neg _
    refine ⟨⟨?_, ?_⟩, (congrArg Mat.toM h1.neg_hom).trans h2⟩
    · rw [DualProgram.exact, n1, Quaternion.normSq_neg]
      exact h1.norm
    · rw [DualProgram.exact, n1, n2, star_neg, neg_mul_neg]
      exact h1.orth
  | inverse a ih =>
    obtain ⟨h1, h2⟩ := ih he
    refine ⟨cj h1, ?_⟩
    have := h1.hom_mul_conj
    rw [h2] at this
    exact (Matrix.inv_eq_right_inv this).symm
  | normalize a ih => exact ih he

/-- The homogeneous matrix of the result is close to the product of the matrices of the leaves and their inverses. -/
theorem C166_matrix [Libm f] (hp : 8 ≤ f.p) {P δ : ℝ} (hδ : 0 ≤ δ) (hP : 1 / 8 ≤ P) (e : DualProgram f) (he : e.Valid P δ)
    (hn : ((1 + δ) * (1 + 11 * f.u)) ^ e.weight ≤ 122 / 100) (hov : 16 * (2 + 2 * (e.leaves * P)) ^ 2 ≤ (2 : ℝ) ^ f.emax) :
    ∃ x, e.run = .ok x ∧ ∀ i j : Fin 3,
      ((x.to_homogeneous i.castSucc j.castSucc).IsFin ∧ |(x.to_homogeneous i.castSucc j.castSucc).toReal - e.hom i.castSucc j.castSucc| ≤
        5 * (((1 + δ) * (1 + 11 * f.u)) ^ e.weight - 1) + 17 * f.u) ∧
      ((x.to_homogeneous i.castSucc 3).IsFin ∧ |(x.to_homogeneous i.castSucc 3).toReal - e.hom i.castSucc 3| ≤
        e.leaves * P * (5 * (((1 + δ) * (1 + 11 * f.u)) ^ e.weight - 1) + 17 * f.u)) ∧
      x.to_homogeneous 3 j.castSucc = 0 ∧ x.to_homogeneous 3 3 = 1 := by
  obtain ⟨x, h1, h2⟩ := C166_programs hp hδ hP e he (by linarith) hov
  have lP : 1 / 8 ≤ e.leaves * P := by
    have k : (1 : ℝ) ≤ e.leaves := by exact_mod_cast e.leaves_pos
    have := mul_le_mul_of_nonneg_right k (by linarith : 0 ≤ P)
    linarith
  refine ⟨x, h1, fun i j => ?_⟩
  rw [← (exact_motion e he).2]
  exact C136_to_homogeneous hp h2 lP (by linarith) hov i j

private theorem u32 : Fmt.f32.u = 1 / 2 ^ 24 := by
  change (2 : ℝ) ^ (-24 : ℤ) = _
  norm_num

/-- The hypotheses hold: a turn by 120 degrees about a line, inverted, normalized and multiplied by the turn, in single precision. -/
example [RealParams] : ∃ y : DQuat ℝ, let t : DualProgram .f32 := .leaf (turn120 .f32) y
    let e : DualProgram .f32 := .mul (.normalize (.inverse t)) (.neg (.conj t))
    e.Valid 2 0 ∧ ((1 + 0) * (1 + 11 * Fmt.f32.u)) ^ e.weight ≤ 1 + 1 / 10 ^ 4 ∧
    16 * (2 + 2 * (e.leaves * 2)) ^ 2 ≤ (2 : ℝ) ^ Fmt.f32.emax := by
  obtain ⟨l, hl⟩ : ∃ l : Vec 3 ℝ, l = ⟨fun _ => √3 / 3⟩ := ⟨_, rfl⟩
  obtain ⟨m, hm⟩ : ∃ m : Vec 3 ℝ, m = ⟨![2 * √3 / 3, -(2 * √3 / 3), 0]⟩ := ⟨_, rfl⟩
  obtain ⟨-, -, -, b⟩ := turn120_close Fmt.f32 hl hm
  refine ⟨_, ⟨b, b⟩, ?_, ?_⟩
  · rw [u32]
    change ((1 + 0) * (1 + 11 * (1 / 2 ^ 24 : ℝ))) ^ 21 ≤ _
    norm_num
  · change 16 * (2 + 2 * (((2 : ℕ) : ℝ) * 2)) ^ 2 ≤ (2 : ℝ) ^ (127 : ℤ)
    norm_num

end StaticMath

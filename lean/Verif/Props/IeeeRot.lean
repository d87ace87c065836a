import Verif.Lemmas.IeeePert
import Verif.Ieee.Sqrt
import Verif.Spec.Libm
import Verif.Props.Lie
import Verif.Props.QuatRotation

/-!
# C109: rotations built in floating point

`SinCosAcc f ε`: the library's `sin` and `cos` are within `ε` of the true values. The computed matrices
are compared with the matrices of the same real angles, which are exact rotations (C72, C73, C78).
-/

namespace StaticMath
open Flt

variable {f : Fmt}

/-! ## Helpers -/

section
variable {T : Type} [Neg T] [Zero T] [One T]

/-- Elementary rotation about a coordinate axis with given sine and cosine. -/
private def axMat : Fin 3 → T → T → Mat 3 T
  | 0, s, c => ⟨![![1, 0, 0], ![0, c, -s], ![0, s, c]]⟩
  | 1, s, c => ⟨![![c, 0, s], ![0, 1, 0], ![-s, 0, c]]⟩
  | 2, s, c => ⟨![![c, -s, 0], ![s, c, 0], ![0, 0, 1]]⟩

end

private def EulerSeq.ax : Option EulerSeq → Fin 3 × Fin 3 × Fin 3
  | some .XYX => (0, 1, 0)
  | some .XYZ => (0, 1, 2)
  | some .XZX => (0, 2, 0)
  | some .XZY => (0, 2, 1)
  | some .YXY => (1, 0, 1)
  | some .YXZ => (1, 0, 2)
  | some .YZX => (0, 1, 2)
  | some .YZY => (1, 2, 1)
  | some .ZXY => (2, 0, 1)
  | some .ZXZ => (2, 0, 2)
  | none => (2, 1, 0)

private def eulEx (a b c : Fin 3) : Mat 3 (Ex (Fin 6)) :=
  M33.mul (M33.mul (axMat a (.var 0) (.var 1)) (axMat b (.var 2) (.var 3))) (axMat c (.var 4) (.var 5))

private theorem eulEx_stats : ∀ a b c : Fin 3, a ≠ b → b ≠ c → ∀ i j : Fin 3,
    Ex.mass (eulEx a b c i j) ≤ 2 ∧ Ex.depth (eulEx a b c i j) ≤ 6 ∧ Ex.deg (eulEx a b c i j) ≤ 3 ∧
    Ex.ufl (eulEx a b c i j) ≤ 15 ∧ Ex.cnt (eulEx a b c i j) ≤ 21 := by decide +kernel

private theorem ax_ne (s : Option EulerSeq) : (EulerSeq.ax s).1 ≠ (EulerSeq.ax s).2.1 ∧
    (EulerSeq.ax s).2.1 ≠ (EulerSeq.ax s).2.2 := by
  rcases s with _ | s
  · decide
  · cases s <;> decide

private theorem eul_flt [Libm f] (y p r : Flt f) (s : Option EulerSeq) (i j : Fin 3) :
    euler_to_rotation y p r s i j = Ex.evalF
      ![RFloat.sin y, RFloat.cos y, RFloat.sin p, RFloat.cos p, RFloat.sin r, RFloat.cos r]
      (eulEx (EulerSeq.ax s).1 (EulerSeq.ax s).2.1 (EulerSeq.ax s).2.2 i j) := by
  rcases s with _ | s
  · fin_cases i <;> fin_cases j <;> rfl
  · cases s <;> fin_cases i <;> fin_cases j <;> rfl

private theorem eul_real [RealParams] (y p r : ℝ) (s : Option EulerSeq) (i j : Fin 3) :
    euler_to_rotation y p r s i j = Ex.evalR
      ![RFloat.sin y, RFloat.cos y, RFloat.sin p, RFloat.cos p, RFloat.sin r, RFloat.cos r]
      (eulEx (EulerSeq.ax s).1 (EulerSeq.ax s).2.1 (EulerSeq.ax s).2.2 i j) := by
  rcases s with _ | s
  · fin_cases i <;> fin_cases j <;> rfl
  · cases s <;> fin_cases i <;> fin_cases j <;> rfl

private theorem pow6 (f : Fmt) {k c d : ℕ} (hk : k ≤ 6) (hc : c ≤ 21) (hd : d ≤ 3) (he : 9 ≤ f.emax) :
    (1 + f.u) ^ k * (c * (2 : ℝ) ^ d) < (2 : ℝ) ^ (f.emax + 1) := by
  have h1 : (2 : ℝ) ^ (10 : ℤ) ≤ (2 : ℝ) ^ (f.emax + 1) := zpow_le_zpow_right₀ (by norm_num) (by omega)
  have hu := f.u_pos
  have hu4 := f.u_le
  have h2 : (1 + f.u) ^ k ≤ (5 / 4) ^ 6 :=
    (pow_le_pow_left₀ (by linarith) (by linarith) k).trans (pow_le_pow_right₀ (by norm_num) hk)
  have h3 : (2 : ℝ) ^ d ≤ 2 ^ 3 := pow_le_pow_right₀ (by norm_num) hd
  have h4 : (c : ℝ) ≤ 21 := by exact_mod_cast hc
  have h5 : (c : ℝ) * (2 : ℝ) ^ d ≤ 21 * 2 ^ 3 := mul_le_mul h4 h3 (by positivity) (by norm_num)
  have h6 := mul_le_mul h2 h5 (by positivity) (by positivity)
  norm_num at h1 h6
  linarith

private theorem pert_fin {ι : Type} {ε : ℝ} {m U : ℕ} {k : ℕ} (hε : 0 ≤ ε) (hε1 : ε ≤ 1) (he : 9 ≤ f.emax) (x : ι → Flt f)
    (y : ι → ℝ) (hx : ∀ i, (x i).IsFin) (hy : ∀ i, |y i| ≤ 1) (hxy : ∀ i, |(x i).toReal - y i| ≤ ε) (e : Ex ι)
    (hm : Ex.mass e ≤ m) (hk : Ex.depth e ≤ k) (hk6 : k ≤ 6) (hd : Ex.deg e ≤ 3) (hU : Ex.ufl e ≤ U)
    (hc : Ex.cnt e ≤ 21) : (Ex.evalF x e).IsFin ∧ |(Ex.evalF x e).toReal - Ex.evalR y e| ≤
      m * ((1 + f.u) ^ k * (1 + ε) ^ 3 - 1) + (1 + f.u) ^ k * (f.eta * U) := by
  have hx2 : ∀ i, |(x i).toReal| ≤ 2 := fun i => by
    have := abs_add_le ((x i).toReal - y i) (y i)
    rw [sub_add_cancel] at this
    linarith [hy i, hxy i]
  have hf := Ex.evalF_isFin one_le_two hx hx2 e (pow6 f (hk.trans hk6) hc hd he)
  exact ⟨hf, Ex.err_pert hε hε1 x y hy hxy e hm hk hd hU hf⟩

theorem acc_nonneg [Libm f] {ε : ℝ} (h : SinCosAcc f ε) : 0 ≤ ε :=
  (abs_nonneg _).trans (h.sin 0 isFin_zero).2

/-- Halving: exact up to underflow. -/
theorem half_val {a : Flt f} (ha : a.IsFin) :
    (a / (1 + 1)).IsFin ∧ |(a / (1 + 1)).toReal - a.toReal / 2| ≤ f.eta := by
  have hp := f.hp
  have hmin := f.hmin
  have hmax := f.hmax
  have h2 : f.Rep (2 : ℝ) := by
    have := f.rep_two_zpow 1 (by omega) (by omega)
    rwa [zpow_one] at this
  have e2 : (1 + 1 : Flt f).IsFin ∧ (1 + 1 : Flt f).toReal = 2 := by
    have := add_exact (a := (1 : Flt f)) (b := 1) isFin_one isFin_one (by
      rw [toReal_one, one_add_one_eq_two, abs_two]; exact h2)
    rwa [toReal_one, one_add_one_eq_two] at this
  have hlt : |a.toReal| < (2 : ℝ) ^ (f.emax + 1) := (rep_abs_toReal a).lt
  have hfin : (a / (1 + 1)).IsFin := by
    refine div_isFin ha e2.1 (by rw [e2.2]; norm_num) ?_
    rw [e2.2, abs_div, abs_two]
    have := f.u_le
    have := f.u_pos
    have := abs_nonneg a.toReal
    nlinarith
  refine ⟨hfin, ?_⟩
  have hpos : (0 : ℝ) ≤ |a.toReal| / 2 := by positivity
  obtain ⟨s, hs⟩ : ∃ s, a / (1 + 1) = pack f s (|a.toReal| / 2) ∧ a.toReal / 2 = sgn s (|a.toReal| / 2) := by
    rcases a with _ | s | ⟨s, x, hx⟩
    · exact ha.elim
    · exact ha.elim
    have e3 : (1 + 1 : Flt f) = fin false 2 h2 := by
      change ofReal f _ (sgn false 1 + sgn false 1) = _
      have : sgn false 1 + sgn false 1 = (2 : ℝ) := by simp only [sgn, Bool.false_eq_true, if_false]; norm_num
      rw [this]
      unfold ofReal
      rw [if_neg two_ne_zero, abs_two, pack_rep h2]
      congr 1
      exact decide_eq_false (by norm_num)
    refine ⟨s, ?_, ?_⟩
    · rw [e3]
      change div _ _ = _
      have e4 : |(fin s x hx : Flt f).toReal| = x := sgn_abs s hx.nonneg
      rw [e4]
      change (open Classical in if (2 : ℝ) = 0 then _ else pack f (s != false) (x / 2)) = _
      rw [if_neg two_ne_zero]
      cases s <;> rfl
    · have e4 : |(fin s x hx : Flt f).toReal| = x := sgn_abs s hx.nonneg
      rw [e4]
      change sgn s x / 2 = _
      cases s <;> simp [sgn, neg_div]
  rw [hs.1] at hfin ⊢
  obtain ⟨hr, e5⟩ := pack_fin hfin
  rw [hs.2, e5]
  change |sgn s (f.rnd _) - _| ≤ _
  rw [sgn_sub, abs_sgn]
  obtain ⟨m, e, hm, hlt, he, he2⟩ := rep_abs_toReal a
  rcases he.eq_or_lt with h | h
  · rcases hpos.eq_or_lt with h0 | h0
    · rw [← h0, f.rnd_zero, sub_zero, abs_zero]; exact f.eta_pos.le
    refine (f.abs_rnd_sub _).trans (le_of_eq ?_)
    have hx : |a.toReal| / 2 < (2 : ℝ) ^ f.emin := by
      rw [hm, ← h]
      have h6 : (m : ℝ) < (2 : ℝ) ^ (f.p : ℤ) := by rw [zpow_natCast]; exact_mod_cast hlt
      have h7 : (2 : ℝ) ^ f.emin = (2 : ℝ) ^ (f.p : ℤ) * (2 : ℝ) ^ (f.emin - f.p + 1) / 2 := by
        rw [← zpow_add₀ (by norm_num), show (f.p : ℤ) + (f.emin - f.p + 1) = f.emin + 1 by ring,
          zpow_add₀ (by norm_num), zpow_one]; ring
      rw [h7]
      have h8 : (0 : ℝ) < (2 : ℝ) ^ (f.emin - f.p + 1) := by positivity
      have := mul_lt_mul_of_pos_right h6 h8
      linarith
    have hl : Int.log 2 (|a.toReal| / 2) ≤ f.emin := by
      have h9 := (Fmt.log_le h0).trans_lt hx
      exact ((zpow_lt_zpow_iff_right₀ (by norm_num)).1 h9).le
    unfold Fmt.ulp Fmt.expo Fmt.eta
    rw [max_eq_right hl, zpow_add₀ (by norm_num), zpow_one]
    ring
  · have : f.Rep (|a.toReal| / 2) := by
      refine ⟨m, e - 1, ?_, hlt, by omega, by omega⟩
      rw [hm, zpow_sub₀ (by norm_num), zpow_one]
      ring
    rw [f.rnd_rep this, sub_self, abs_zero]
    exact f.eta_pos.le

theorem half_acc [Libm f] {ε : ℝ} (h : SinCosAcc f ε) {a : Flt f} (ha : a.IsFin) :
    ((Libm.sin (a / (1 + 1)) : Flt f).IsFin ∧ |(Libm.sin (a / (1 + 1)) : Flt f).toReal - Real.sin (a.toReal / 2)| ≤ ε + f.eta) ∧
    ((Libm.cos (a / (1 + 1)) : Flt f).IsFin ∧ |(Libm.cos (a / (1 + 1)) : Flt f).toReal - Real.cos (a.toReal / 2)| ≤ ε + f.eta) := by
  obtain ⟨h1, h2⟩ := half_val ha
  have hs := h.sin _ h1
  have hc := h.cos _ h1
  have ls : |Real.sin (a / (1 + 1)).toReal - Real.sin (a.toReal / 2)| ≤ |(a / (1 + 1)).toReal - a.toReal / 2| := by
    have := Real.lipschitzWith_sin.dist_le_mul (a / (1 + 1)).toReal (a.toReal / 2)
    simpa [Real.dist_eq] using this
  have lc : |Real.cos (a / (1 + 1)).toReal - Real.cos (a.toReal / 2)| ≤ |(a / (1 + 1)).toReal - a.toReal / 2| := by
    have := Real.lipschitzWith_cos.dist_le_mul (a / (1 + 1)).toReal (a.toReal / 2)
    simpa [Real.dist_eq] using this
  refine ⟨⟨hs.1, ?_⟩, hc.1, ?_⟩
  · have := abs_sub_le (Libm.sin (a / (1 + 1)) : Flt f).toReal (Real.sin (a / (1 + 1)).toReal) (Real.sin (a.toReal / 2))
    linarith [hs.2]
  · have := abs_sub_le (Libm.cos (a / (1 + 1)) : Flt f).toReal (Real.cos (a / (1 + 1)).toReal) (Real.cos (a.toReal / 2))
    linarith [hc.2]

private theorem acc_neg {ε r : ℝ} {x : Flt f} (h : x.IsFin ∧ |x.toReal - r| ≤ ε) :
    (-x).IsFin ∧ |(-x).toReal - -r| ≤ ε := by
  refine ⟨isFin_neg.2 h.1, ?_⟩
  rw [toReal_neg, ← neg_sub', abs_neg]
  exact h.2

private theorem acc_zero [Libm f] {ε : ℝ} (h : SinCosAcc f ε) : (0 : Flt f).IsFin ∧ |(0 : Flt f).toReal - 0| ≤ ε := by
  rw [toReal_zero, sub_zero, abs_zero]
  exact ⟨isFin_zero, acc_nonneg h⟩

private theorem acc_one [Libm f] {ε : ℝ} (h : SinCosAcc f ε) : (1 : Flt f).IsFin ∧ |(1 : Flt f).toReal - 1| ≤ ε := by
  rw [toReal_one, sub_self, abs_zero]
  exact ⟨isFin_one, acc_nonneg h⟩

/-! ## C109 -/

/-- `rot2` -/
theorem C109_rot2 [Libm f] [RealParams] {ε : ℝ} (h : SinCosAcc f ε) (a : Flt f) (ha : a.IsFin) (i j : Fin 2) :
    (rot2 a i j).IsFin ∧ |(rot2 a i j).toReal - rot2 a.toReal i j| ≤ ε := by
  have hs := h.sin a ha
  have hc := h.cos a ha
  fin_cases i <;> fin_cases j
  all_goals first
    | exact hs
    | exact hc
    | exact acc_neg hs

/-- `rotx` -/
theorem C109_rotx [Libm f] [RealParams] {ε : ℝ} (h : SinCosAcc f ε) (a : Flt f) (ha : a.IsFin) (i j : Fin 3) :
    (rotx a i j).IsFin ∧ |(rotx a i j).toReal - rotx a.toReal i j| ≤ ε := by
  have hs := h.sin a ha
  have hc := h.cos a ha
  fin_cases i <;> fin_cases j
  all_goals first
    | exact hs
    | exact hc
    | exact acc_neg hs
    | exact acc_zero h
    | exact acc_one h

/-- `roty` -/
theorem C109_roty [Libm f] [RealParams] {ε : ℝ} (h : SinCosAcc f ε) (a : Flt f) (ha : a.IsFin) (i j : Fin 3) :
    (roty a i j).IsFin ∧ |(roty a i j).toReal - roty a.toReal i j| ≤ ε := by
  have hs := h.sin a ha
  have hc := h.cos a ha
  fin_cases i <;> fin_cases j
  all_goals first
    | exact hs
    | exact hc
    | exact acc_neg hs
    | exact acc_zero h
    | exact acc_one h

/-- `rotz` -/
theorem C109_rotz [Libm f] [RealParams] {ε : ℝ} (h : SinCosAcc f ε) (a : Flt f) (ha : a.IsFin) (i j : Fin 3) :
    (rotz a i j).IsFin ∧ |(rotz a i j).toReal - rotz a.toReal i j| ≤ ε := by
  have hs := h.sin a ha
  have hc := h.cos a ha
  fin_cases i <;> fin_cases j
  all_goals first
    | exact hs
    | exact hc
    | exact acc_neg hs
    | exact acc_zero h
    | exact acc_one h

/-- `ksi`: the translation part is copied unchanged. -/
theorem C109_ksi [Libm f] [RealParams] {ε : ℝ} (h : SinCosAcc f ε) (a x y : Flt f) (ha : a.IsFin) (hx : x.IsFin) (hy : y.IsFin)
    (i j : Fin 3) : (ksi a x y i j).IsFin ∧ |(ksi a x y i j).toReal - ksi a.toReal x.toReal y.toReal i j| ≤ ε := by
  have hs := h.sin a ha
  have hc := h.cos a ha
  have same : ∀ {z : Flt f}, z.IsFin → z.IsFin ∧ |z.toReal - z.toReal| ≤ ε := fun hz =>
    ⟨hz, by rw [sub_self, abs_zero]; exact acc_nonneg h⟩
  fin_cases i <;> fin_cases j
  all_goals first
    | exact hs
    | exact hc
    | exact acc_neg hs
    | exact acc_zero h
    | exact acc_one h
    | exact same hx
    | exact same hy

/-- `euler_to_rotation`, every sequence. -/
theorem C109_euler [Libm f] [RealParams] {ε : ℝ} (h : SinCosAcc f ε) (hε1 : ε ≤ 1) (he : 9 ≤ f.emax) (y p r : Flt f)
    (hy : y.IsFin) (hp : p.IsFin) (hr : r.IsFin) (s : Option EulerSeq) (i j : Fin 3) :
    (euler_to_rotation y p r s i j).IsFin ∧
    |(euler_to_rotation y p r s i j).toReal - euler_to_rotation y.toReal p.toReal r.toReal s i j| ≤
      2 * ((1 + f.u) ^ 6 * (1 + ε) ^ 3 - 1) + (1 + f.u) ^ 6 * (f.eta * 15) := by
  have st := eulEx_stats _ _ _ (ax_ne s).1 (ax_ne s).2 i j
  rw [eul_flt, eul_real]
  refine pert_fin (acc_nonneg h) hε1 he _ _ ?_ ?_ ?_ _ st.1 st.2.1 le_rfl st.2.2.1 st.2.2.2.1 st.2.2.2.2
  · intro i
    fin_cases i
    exacts [(h.sin y hy).1, (h.cos y hy).1, (h.sin p hp).1, (h.cos p hp).1, (h.sin r hr).1, (h.cos r hr).1]
  · intro i
    fin_cases i
    exacts [Real.abs_sin_le_one _, Real.abs_cos_le_one _, Real.abs_sin_le_one _, Real.abs_cos_le_one _,
      Real.abs_sin_le_one _, Real.abs_cos_le_one _]
  · intro i
    fin_cases i
    exacts [(h.sin y hy).2, (h.cos y hy).2, (h.sin p hp).2, (h.cos p hp).2, (h.sin r hr).2, (h.cos r hr).2]

private def qEx : Fin 4 → Ex (Fin 6)
  | 0 => .var 1 * .var 3 * .var 5 + .var 0 * .var 2 * .var 4
  | 1 => .var 0 * .var 3 * .var 5 - .var 1 * .var 2 * .var 4
  | 2 => .var 1 * .var 2 * .var 5 + .var 0 * .var 3 * .var 4
  | 3 => .var 1 * .var 3 * .var 4 - .var 0 * .var 2 * .var 5

private theorem qEx_stats : ∀ i : Fin 4, Ex.mass (qEx i) ≤ 2 ∧ Ex.depth (qEx i) ≤ 3 ∧ Ex.deg (qEx i) ≤ 3 ∧
    Ex.ufl (qEx i) ≤ 6 ∧ Ex.cnt (qEx i) ≤ 21 := by decide +kernel

/-- `Quaternion::from_euler_angles`. -/
theorem C109_quaternion_euler [Libm f] [RealParams] {ε : ℝ} (h : SinCosAcc f ε) (hε1 : ε + f.eta ≤ 1) (he : 9 ≤ f.emax)
    (y p r : Flt f) (hy : y.IsFin) (hp : p.IsFin) (hr : r.IsFin) :
    let q := Quat.from_euler_angles y p r
    let q' := Quat.from_euler_angles y.toReal p.toReal r.toReal
    let E := 2 * ((1 + f.u) ^ 3 * (1 + (ε + f.eta)) ^ 3 - 1) + (1 + f.u) ^ 3 * (f.eta * 6)
    (q.q0.IsFin ∧ |q.q0.toReal - q'.q0| ≤ E) ∧ ∀ i, (q.q i).IsFin ∧ |(q.q i).toReal - q'.q i| ≤ E := by
  intro q q' E
  obtain ⟨sy, cy⟩ := half_acc h hy
  obtain ⟨sp, cp⟩ := half_acc h hp
  obtain ⟨sr, cr⟩ := half_acc h hr
  have e0 := acc_nonneg h
  have key (i : Fin 4) := pert_fin (f := f) (k := 3) (U := 6) (m := 2) (add_nonneg e0 f.eta_pos.le) hε1 he
    ![Libm.sin (r / (1 + 1)), Libm.cos (r / (1 + 1)), Libm.sin (p / (1 + 1)), Libm.cos (p / (1 + 1)),
      Libm.sin (y / (1 + 1)), Libm.cos (y / (1 + 1))]
    ![Real.sin (r.toReal / 2), Real.cos (r.toReal / 2), Real.sin (p.toReal / 2), Real.cos (p.toReal / 2),
      Real.sin (y.toReal / 2), Real.cos (y.toReal / 2)]
    (by intro i; fin_cases i; exacts [sr.1, cr.1, sp.1, cp.1, sy.1, cy.1])
    (by intro i; fin_cases i; exacts [Real.abs_sin_le_one _, Real.abs_cos_le_one _, Real.abs_sin_le_one _, Real.abs_cos_le_one _,
      Real.abs_sin_le_one _, Real.abs_cos_le_one _])
    (by intro i; fin_cases i; exacts [sr.2, cr.2, sp.2, cp.2, sy.2, cy.2]) (qEx i)
    (qEx_stats i).1 (qEx_stats i).2.1 (by norm_num) (qEx_stats i).2.2.1 (qEx_stats i).2.2.2.1 (qEx_stats i).2.2.2.2
  have q2 : q' = ⟨Ex.evalR ![Real.sin (r.toReal / 2), Real.cos (r.toReal / 2), Real.sin (p.toReal / 2),
      Real.cos (p.toReal / 2), Real.sin (y.toReal / 2), Real.cos (y.toReal / 2)] (qEx 0),
    ⟨![Ex.evalR ![Real.sin (r.toReal / 2), Real.cos (r.toReal / 2), Real.sin (p.toReal / 2),
      Real.cos (p.toReal / 2), Real.sin (y.toReal / 2), Real.cos (y.toReal / 2)] (qEx 1),
      Ex.evalR ![Real.sin (r.toReal / 2), Real.cos (r.toReal / 2), Real.sin (p.toReal / 2),
      Real.cos (p.toReal / 2), Real.sin (y.toReal / 2), Real.cos (y.toReal / 2)] (qEx 2),
      Ex.evalR ![Real.sin (r.toReal / 2), Real.cos (r.toReal / 2), Real.sin (p.toReal / 2),
      Real.cos (p.toReal / 2), Real.sin (y.toReal / 2), Real.cos (y.toReal / 2)] (qEx 3)]⟩, true⟩ := by
    simp only [q', Quat.from_euler_angles, one_add_one_eq_two]
    rfl
  rw [q2]
  refine ⟨key 0, fun i => ?_⟩
  fin_cases i
  exacts [key 1, key 2, key 3]

private def raaEx : Mat 3 (Ex (Fin 5)) :=
  let skew := skew_from_vec ⟨![.var 0, .var 1, .var 2]⟩
  M33.add (M33.add M33.one (M33.smul skew (.var 3))) (M33.smul (M33.mul skew skew) (1 - .var 4))

private theorem raaEx_stats : ∀ i j : Fin 3, Ex.mass (raaEx i j) ≤ 5 ∧ Ex.depth (raaEx i j) ≤ 6 ∧ Ex.deg (raaEx i j) ≤ 3 ∧
    Ex.ufl (raaEx i j) ≤ 11 ∧ Ex.cnt (raaEx i j) ≤ 21 := by decide +kernel

/-- `rotation_from_axis_angle`, axis components of magnitude at most 1. -/
theorem C109_axis_angle [Libm f] [RealParams] {ε : ℝ} (h : SinCosAcc f ε) (hε1 : ε ≤ 1) (he : 9 ≤ f.emax)
    (w : Vec 3 (Flt f)) (hw : ∀ i, (w i).FinLe 1) (a : Flt f) (ha : a.IsFin) (i j : Fin 3) :
    (rotation_from_axis_angle w a i j).IsFin ∧
    |(rotation_from_axis_angle w a i j).toReal - rotation_from_axis_angle ⟨fun i => (w i).toReal⟩ a.toReal i j| ≤
      5 * ((1 + f.u) ^ 6 * (1 + ε) ^ 3 - 1) + (1 + f.u) ^ 6 * (f.eta * 11) := by
  have st := raaEx_stats i j
  have hs := h.sin a ha
  have hc := h.cos a ha
  have key := pert_fin (f := f) (k := 6) (acc_nonneg h) hε1 he ![w 0, w 1, w 2, Libm.sin a, Libm.cos a]
    ![(w 0).toReal, (w 1).toReal, (w 2).toReal, Real.sin a.toReal, Real.cos a.toReal]
    (by intro i; fin_cases i; exacts [(hw 0).1, (hw 1).1, (hw 2).1, hs.1, hc.1])
    (by intro i; fin_cases i; exacts [(hw 0).2, (hw 1).2, (hw 2).2, Real.abs_sin_le_one _, Real.abs_cos_le_one _])
    (by
      intro i
      have same : ∀ {z : Flt f}, |z.toReal - z.toReal| ≤ ε := fun {z} => by rw [sub_self, abs_zero]; exact acc_nonneg h
      fin_cases i
      exacts [same, same, same, hs.2, hc.2]) (raaEx i j) st.1 st.2.1 le_rfl st.2.2.1 st.2.2.2.1 st.2.2.2.2
  have e1 : rotation_from_axis_angle w a i j = Ex.evalF ![w 0, w 1, w 2, Libm.sin a, Libm.cos a] (raaEx i j) := by
    fin_cases i <;> fin_cases j <;> rfl
  have e2 : rotation_from_axis_angle ⟨fun i => (w i).toReal⟩ a.toReal i j =
      Ex.evalR ![(w 0).toReal, (w 1).toReal, (w 2).toReal, Real.sin a.toReal, Real.cos a.toReal] (raaEx i j) := by
    fin_cases i <;> fin_cases j <;> rfl
  rw [e1, e2]
  exact key

/-- A matrix within `E` of a rotation is orthogonal up to `6 E + 3 E^2`. -/
theorem near_orth {A R : Mat 3 ℝ} {E : ℝ} (hR : IsRot R) (h : ∀ i j, |A i j - R i j| ≤ E) (i j : Fin 3) :
    |(A.toM * A.toM.transpose) i j - (1 : Matrix (Fin 3) (Fin 3) ℝ) i j| ≤ 6 * E + 3 * E ^ 2 := by
  have ho : R.toM * R.toM.transpose = 1 := (Matrix.mem_orthogonalGroup_iff (Fin 3) ℝ).1 hR.1
  have hb : ∀ i k, |R i k| ≤ 1 := fun i k => by
    have h1 := congrFun (congrFun ho i) i
    rw [Matrix.mul_apply, Matrix.one_apply_eq] at h1
    have h2 : R i k * R i k ≤ 1 := by
      rw [← h1]
      exact Finset.single_le_sum (f := fun k => R.toM i k * R.toM.transpose k i) (fun k _ => mul_self_nonneg (R i k)) (Finset.mem_univ k)
    rw [abs_le]; constructor <;> nlinarith
  have hE : 0 ≤ E := (abs_nonneg _).trans (h 0 0)
  rw [← ho, Matrix.mul_apply, Matrix.mul_apply, ← Finset.sum_sub_distrib]
  refine (Finset.abs_sum_le_sum_abs _ _).trans ?_
  have hk : ∀ k : Fin 3, |A.toM i k * A.toM.transpose k j - R.toM i k * R.toM.transpose k j| ≤ 2 * E + E ^ 2 := fun k => by
    change |A i k * A j k - R i k * R j k| ≤ _
    have e : A i k * A j k - R i k * R j k =
        (A i k - R i k) * R j k + R i k * (A j k - R j k) + (A i k - R i k) * (A j k - R j k) := by ring
    rw [e]
    refine (abs_add_three _ _ _).trans ?_
    rw [abs_mul, abs_mul, abs_mul]
    have m1 := mul_le_mul (h i k) (hb j k) (abs_nonneg _) hE
    have m2 := mul_le_mul (hb i k) (h j k) (abs_nonneg _) zero_le_one
    have m3 := mul_le_mul (h i k) (h j k) (abs_nonneg _) hE
    linarith
  refine (Finset.sum_le_sum fun k _ => hk k).trans (le_of_eq ?_)
  rw [Finset.sum_const, Finset.card_univ, Fintype.card_fin]
  simp only [nsmul_eq_mul]
  push_cast
  ring

/-- The computed Euler matrix is orthogonal up to a multiple of the errors. -/
theorem C109_euler_orthogonal [Libm f] [RealParams] {ε : ℝ} (h : SinCosAcc f ε) (hε1 : ε ≤ 1) (he : 9 ≤ f.emax) (y p r : Flt f)
    (hy : y.IsFin) (hp : p.IsFin) (hr : r.IsFin) (s : Option EulerSeq) (i j : Fin 3) :
    let E := 2 * ((1 + f.u) ^ 6 * (1 + ε) ^ 3 - 1) + (1 + f.u) ^ 6 * (f.eta * 15)
    let A : Matrix (Fin 3) (Fin 3) ℝ := Matrix.of fun i j => (euler_to_rotation y p r s i j).toReal
    |(A * A.transpose) i j - (1 : Matrix (Fin 3) (Fin 3) ℝ) i j| ≤ 6 * E + 3 * E ^ 2 := by
  intro E A
  exact near_orth (A := ⟨fun i j => (euler_to_rotation y p r s i j).toReal⟩) ((C73_euler_to_rotation_partial y.toReal p.toReal r.toReal).2.2 s)
    (fun i j => (C109_euler h hε1 he y p r hy hp hr s i j).2) i j

/-- The correctly rounded library. -/
@[instance_reducible] private noncomputable def roundedLibm (f : Fmt) : Libm f where
  sin x := ofReal f false (Real.sin x.toReal)
  cos x := ofReal f false (Real.cos x.toReal)
  tan x := x
  acos x := x
  exp x := x
  ln x := x
  atan2 x _ := x
  pi := 0
  frac_pi_2 := 0
  lit1em40 := 0
  lit0001 := 0
  lit1em6 := 0

private theorem ofReal_small {r : ℝ} (h : |r| ≤ 1) :
    (ofReal f false r).IsFin ∧ |(ofReal f false r).toReal - r| ≤ f.u + f.eta := by
  have hp := f.hp
  have hmax := f.hmax
  have h1 : (ofReal f false r).IsFin := by
    refine pack_isFin (abs_nonneg _) ?_
    have h2 : (2 : ℝ) ^ (1 : ℤ) ≤ (2 : ℝ) ^ (f.emax + 1) := zpow_le_zpow_right₀ (by norm_num) (by omega)
    have := f.u_le
    have := f.u_pos
    rw [zpow_one] at h2
    nlinarith [abs_nonneg r]
  refine ⟨h1, ?_⟩
  obtain ⟨hr, e⟩ := pack_fin h1
  have h3 : (ofReal f false r).toReal = sgn (decide (r < 0)) (f.rnd |r|) := by
    unfold ofReal
    rw [e]
    by_cases h0 : r = 0
    · have h7 : f.rnd |r| = 0 := by rw [h0, abs_zero, f.rnd_zero]
      change sgn _ (f.rnd |r|) = _
      rw [h7]
      simp [sgn]
    · rw [if_neg h0]; rfl
  have h4 := sgn_lt_abs r
  have h5 := f.rnd_err (abs_nonneg r)
  have h6 : sgn (decide (r < 0)) (f.rnd |r|) - r = sgn (decide (r < 0)) (f.rnd |r|) - sgn (decide (r < 0)) |r| := by rw [h4]
  rw [h3, h6, sgn_sub, abs_sgn]
  have := f.u_pos
  nlinarith

private theorem roundedLibm_acc (f : Fmt) : @SinCosAcc f (roundedLibm f) (f.u + f.eta) :=
  letI := roundedLibm f
  ⟨fun _ _ => ofReal_small (Real.abs_sin_le_one _), fun _ _ => ofReal_small (Real.abs_cos_le_one _)⟩

/-- Concrete case: single precision with correctly rounded `sin` and `cos`, default sequence, angles `1, 1, 1`. -/
example [RealParams] (i j : Fin 3) :
    letI := roundedLibm Fmt.f32
    |(euler_to_rotation (1 : Flt Fmt.f32) 1 1 none i j).toReal - euler_to_rotation (1 : ℝ) 1 1 none i j| ≤ 2 ^ (-18 : ℤ) := by
  let _ := roundedLibm Fmt.f32
  have hu : Fmt.f32.u = (2 : ℝ) ^ (-24 : ℤ) := rfl
  have hη : Fmt.f32.eta = (2 : ℝ) ^ (-150 : ℤ) := rfl
  have h := (C109_euler (roundedLibm_acc Fmt.f32) (by rw [hu, hη]; norm_num) (by decide) 1 1 1 isFin_one isFin_one isFin_one
    none i j).2
  rw [toReal_one, hu, hη] at h
  refine h.trans ?_
  norm_num

end StaticMath

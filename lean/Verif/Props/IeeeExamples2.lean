import Verif.Model.Examples
import Verif.Props.IeeeScrewPar
import Verif.Props.IeeeAxisAngle
import Verif.Props.IeeeRot
import Verif.Props.Transform

/-!
# C161: transforming points by computed dual quaternions, and the dual quaternion example programs in floating point
-/

namespace StaticMath
open Flt Quaternion

variable {f : Fmt}

private theorem vec_norm {v : Vec 3 ℝ} {P : ℝ} (hP : 0 ≤ P) (h : v 0 ^ 2 + v 1 ^ 2 + v 2 ^ 2 ≤ P ^ 2) : ‖v.toH‖ ≤ P := by
  have h1 : ‖v.toH‖ ^ 2 = v 0 ^ 2 + v 1 ^ 2 + v 2 ^ 2 := by
    rw [pow_two, ← normSq_eq_norm_mul_self, normSq_def']
    change (0 : ℝ) ^ 2 + v 0 ^ 2 + v 1 ^ 2 + v 2 ^ 2 = _
    ring
  exact abs_le_of_sq_le_sq' (by rw [h1]; exact h) hP |>.2

/-- The dual quaternion of a point is exact. -/
private theorem close_point (p : Vec 3 (Flt f)) (hf : ∀ i, (p i).IsFin) {P : ℝ} (hP : 0 ≤ P)
    (h : (p 0).toReal ^ 2 + (p 1).toReal ^ 2 + (p 2).toReal ^ 2 ≤ P ^ 2) :
    (DQuat.new_from_point p).Close (DQuat.new_from_point p.re3) P 0 := by
  have e1 : (Quat.one : Quat (Flt f)).reH = 1 := by
    ext
    exacts [toReal_one (f := f), toReal_zero (f := f), toReal_zero (f := f), toReal_zero (f := f)]
  have g1 : (Quat.one : Quat ℝ).toH = 1 := by ext <;> rfl
  have e2 : (Quat.new_imag p).reH = (Quat.new_imag p.re3).toH := by
    ext
    exacts [toReal_zero (f := f), rfl, rfl, rfl]
  have g2 : (Quat.new_imag p.re3).toH = p.re3.toH := by ext <;> rfl
  refine ⟨fun i => ⟨?_, ?_⟩, ⟨?_, ?_⟩, ?_, ?_, ?_⟩
  · fin_cases i
    exacts [isFin_one, isFin_zero, isFin_zero, isFin_zero]
  · fin_cases i
    exacts [isFin_zero, hf 0, hf 1, hf 2]
  · change normSq (Quat.one : Quat ℝ).toH = 1
    rw [g1, map_one]
  · change ((Quat.one : Quat ℝ).toH * star (Quat.new_imag p.re3).toH).re = 0
    rw [g1, one_mul, re_star]
    rfl
  · change ‖(Quat.new_imag p.re3).toH‖ ≤ P
    rw [g2]
    exact vec_norm hP h
  · change ‖(Quat.one : Quat (Flt f)).reH - (Quat.one : Quat ℝ).toH‖ ≤ 0
    rw [e1, g1, sub_self, norm_zero]
  · change ‖(Quat.new_imag p).reH - (Quat.new_imag p.re3).toH‖ ≤ P * 0
    rw [e2, sub_self, norm_zero, mul_zero]

/-- The vector of the dual part of a dual quaternion close to a motion. -/
private theorem dual_part {x : DQuat (Flt f)} {y : DQuat ℝ} {P δ : ℝ} (h : x.Close y P δ) (i : Fin 3) :
    (x.q_dual.q i).IsFin ∧ |(x.q_dual.q i).toReal - y.q_dual.q i| ≤ P * δ := by
  have key := Quat.comp_sub_le x.q_dual y.q_dual
  fin_cases i
  exacts [⟨(h.fin 1).2, (key 1).trans h.dual⟩, ⟨(h.fin 2).2, (key 2).trans h.dual⟩, ⟨(h.fin 3).2, (key 3).trans h.dual⟩]

private theorem point_dual {T : Type} [Add T] [Sub T] [Mul T] [Neg T] [Div T] [Zero T] [One T] (x : DQuat T) (p : Vec 3 T) :
    x.transform_point p = ((x.mul (DQuat.new_from_point p)).mul x.conj).q_dual.q := rfl

/-- **C161.** `transform_point` of a float dual quaternion within `δ` of a rigid motion with translation of length at most `2 P`, applied to
a float point no further than `P` from the origin: no overflow, and every coordinate is that of the exactly rotated point (the code does
not add the translation, C61) up to `3 P ((1 + δ)² (1 + 11 u)² - 1)`. -/
theorem C161_transform_point (hp : 8 ≤ f.p) {x : DQuat (Flt f)} {y : DQuat ℝ} {P δ : ℝ} (hx : x.Close y P δ) (hP : 1 / 8 ≤ P)
    (hδ : (1 + δ) ^ 2 * (1 + 11 * f.u) ^ 2 ≤ 2) (hov : 16 * (2 + 6 * P) ^ 2 ≤ (2 : ℝ) ^ f.emax) (p : Vec 3 (Flt f)) (hf : ∀ i, (p i).IsFin)
    (h : (p 0).toReal ^ 2 + (p 1).toReal ^ 2 + (p 2).toReal ^ 2 ≤ P ^ 2) (i : Fin 3) :
    (x.transform_point p i).IsFin ∧
      |(x.transform_point p i).toReal - M33.mulVec y.q_real.to_rotation p.re3 i| ≤ 3 * P * ((1 + δ) ^ 2 * (1 + 11 * f.u) ^ 2 - 1) := by
  have hu0 := f.u_pos
  obtain ⟨-, -, δ0, -⟩ := hx.norms
  have g1 : 1 ≤ (1 + δ) * (1 + 11 * f.u) := by nlinarith
  have g2 : (1 + δ) * (1 + 11 * f.u) ≤ 2 := by nlinarith
  have o4 : 16 * (2 + 2 * (1 + 1) * P) ^ 2 ≤ (2 : ℝ) ^ f.emax := by
    refine le_trans ?_ hov
    have : (2 + 2 * (1 + 1) * P) ^ 2 ≤ (2 + 6 * P) ^ 2 := pow_le_pow_left₀ (by linarith) (by linarith) 2
    linarith
  have s1 := DQuat.Close.mul hp (k := 1) (P := P) (G := 1 + δ) (δ := 0) zero_le_one hP
    (by rw [one_mul, add_sub_cancel_left]; exact hx) (close_point p hf (by linarith) h) (by rw [add_zero, one_mul]; exact g2) o4
  rw [add_zero, one_mul] at s1
  have s2 := DQuat.Close.mul hp (k := 1 + 1) (P := P) (G := (1 + δ) * (1 + 11 * f.u)) (δ := δ) (by norm_num) hP s1 hx.conj
    (by linarith) (by rw [show (2 : ℝ) + 2 * (1 + 1 + 1) * P = 2 + 6 * P by ring]; exact hov)
  have e : (1 + 1 + 1) * P * ((1 + δ) * (1 + 11 * f.u) * ((1 + δ) * (1 + 11 * f.u)) - 1) = 3 * P * ((1 + δ) ^ 2 * (1 + 11 * f.u) ^ 2 - 1) := by ring
  have key := dual_part s2 i
  generalize hA : (x.mul (DQuat.new_from_point p)).mul x.conj = A at key
  generalize hB : (y.mul (DQuat.new_from_point p.re3)).mul y.conj = B at key
  have t1 : x.transform_point p = A.q_dual.q := by rw [← hA]; exact point_dual x p
  have t2 : y.transform_point p.re3 = B.q_dual.q := by rw [← hB]; exact point_dual y p.re3
  have t3 : M33.mulVec y.q_real.to_rotation p.re3 = B.q_dual.q := by rw [← t2]; exact (DQuat.transform_point_eq y p.re3).symm
  rw [t1, t3, ← e]
  exact key

/-- **C161.** The dual number `norm` of such a dual quaternion is one up to rounding: real part 1, dual part 0. -/
theorem C161_norm (hp : 8 ≤ f.p) {x : DQuat (Flt f)} {y : DQuat ℝ} {P δ : ℝ} (hx : x.Close y P δ) (hP : 1 / 8 ≤ P)
    (hδ : (1 + δ) ^ 2 * (1 + 11 * f.u) ≤ 2) (hov : 16 * (2 + 4 * P) ^ 2 ≤ (2 : ℝ) ^ f.emax) :
    (∀ i, (x.norm.real.comp i).IsFin ∧ (x.norm.dual.comp i).IsFin) ∧
    ‖x.norm.real.reH - 1‖ ≤ (1 + δ) ^ 2 * (1 + 11 * f.u) - 1 ∧ ‖x.norm.dual.reH‖ ≤ 2 * P * ((1 + δ) ^ 2 * (1 + 11 * f.u) - 1) := by
  have e : (1 + δ) * ((1 + δ) * (1 + 11 * f.u)) = (1 + δ) ^ 2 * (1 + 11 * f.u) := by ring
  have s := DQuat.Close.mul hp (k := 1) (P := P) (G := 1 + δ) (δ := δ) zero_le_one hP
    (by rw [one_mul, add_sub_cancel_left]; exact hx) hx.conj (by rw [e]; exact hδ)
    (by rw [show (2 : ℝ) + 2 * (1 + 1) * P = 2 + 4 * P by ring]; exact hov)
  rw [e] at s
  have r1 : (y.mul y.conj).q_real.toH = 1 := by
    change (y.q_real.mul y.q_real.conj).toH = 1
    rw [Quat.toH_mul, Quat.toH_conj, self_mul_star, hx.motion.norm]
    rfl
  have r2 : (y.mul y.conj).q_dual.toH = 0 := by
    change ((y.q_real.mul y.q_dual.conj).add (y.q_dual.mul y.q_real.conj)).toH = 0
    rw [Quat.toH_add, Quat.toH_mul, Quat.toH_mul, Quat.toH_conj, Quat.toH_conj]
    have h := hx.motion.orth
    have e : y.q_dual.toH * star y.q_real.toH = star (y.q_real.toH * star y.q_dual.toH) := by rw [star_mul, star_star]
    rw [e, self_add_star, h]
    simp
  have a := s.real
  have b := s.dual
  rw [r1] at a
  rw [r2, sub_zero, one_add_one_eq_two] at b
  exact ⟨s.fin, a, b⟩

/-- The dual part of a motion from its translation. -/
private theorem dual_of_translation {y : DQuat ℝ} (h : y.IsMotion) : y.q_dual.toH = ((1 : ℝ) / (1 + 1)) • y.get_translation.toH * y.q_real.toH := by
  have h1 : star y.q_real.toH * y.q_real.toH = 1 := by rw [star_mul_self, h.norm]; rfl
  have h2 : (2 * y.q_dual.toH * star y.q_real.toH).im = 2 * y.q_dual.toH * star y.q_real.toH := by
    have o : (y.q_dual.toH * star y.q_real.toH).re = 0 := by
      have := h.orth
      rw [← re_star, star_mul, star_star] at this
      exact this
    have o2 : (2 * y.q_dual.toH * star y.q_real.toH).re = 0 := by
      rw [two_mul, add_mul, re_add, o, add_zero]
    ext
    · rw [o2]; rfl
    · rfl
    · rfl
    · rfl
  rw [DQuat.translation_toH, h2, smul_mul_assoc, mul_assoc, h1, mul_one, two_mul, smul_add, ← add_smul]
  norm_num

/-- **C161.** `dual_quaternion_screw_parameters`: a rotation by `N` about the direction of `axis`, and the translation of the screw motion about the
line `(l, m)` with this angle and pitch distance `D`, in floats. The computed parameters are those of the line, up to a multiple of
`d = 7.6 ε + (18 N + 100) u`, where `ε` is the accuracy of the library's functions. -/
theorem C161_screw_parameters [RealParams] [Libm f] (hw : f.Wide) {ε : ℝ} (h : SinCosAcc f ε) (hA : Atan2Acc f ε) (hT : TanAcc f ε)
    (axis : Vec 3 (Flt f)) (angle : Flt f) (trans : Vec 3 (Flt f)) (hv : ∀ k, (V3.smul axis angle k).IsFin)
    (hf : (V3.norm2 (V3.smul axis angle)).IsFin)
    (hn : ∀ k, (V3.smul axis angle k).toReal = 0 ∨ (2 : ℝ) ^ f.emin ≤ (V3.smul axis angle k).toReal ^ 2) {N D P d : ℝ}
    (hNe : N = √(∑ k, (V3.smul axis angle k).toReal ^ 2)) (hN : N ≤ 2 * Real.pi) {l m : Vec 3 ℝ} (hlm : IsLine l m)
    (hl : ∀ k, l k = (V3.smul axis angle k).toReal / N) (htf : ∀ k, (trans k).IsFin)
    (ht : ∀ k, (trans k).toReal = (DQuat.new_from_screw_parameters l m N D).get_translation k)
    (hsz : (trans 0).toReal ^ 2 + (trans 1).toReal ^ 2 + (trans 2).toReal ^ 2 ≤ (2 * P) ^ 2) (hP : 1 / 8 ≤ P)
    (hde : d = 38 / 5 * ε + (18 * N + 100) * f.u) (hσ : 0 < Real.sin (N / 2)) (hd : 4096 * d ≤ Real.sin (N / 2))
    (hov : 16 * (2 + 2 * (P / Real.sin (N / 2))) ^ 2 ≤ (2 : ℝ) ^ f.emax) :
    ∃ l' m' θ' D', Examples.screw_parameters axis angle trans = .ok (l', m', θ', D') ∧
      (∀ i, (l' i).IsFin ∧ |(l' i).toReal - l i| ≤ 30 * (d / Real.sin (N / 2))) ∧
      (∀ i, (m' i).IsFin ∧ |(m' i).toReal - m i| ≤ 283 * (P * (d / Real.sin (N / 2) ^ 2))) ∧
      (θ'.IsFin ∧ |θ'.toReal - N| ≤ 41 * d) ∧ D'.IsFin ∧ |D'.toReal - D| ≤ 248 * (P * (d / Real.sin (N / 2))) := by
  have hp : 8 ≤ f.p := hw.p
  have hu0 := f.u_pos
  have N0 : 0 ≤ N := by rw [hNe]; exact Real.sqrt_nonneg _
  have hπ := Real.pi_le_four
  have s1 := Real.sin_le_one (N / 2)
  have ε0 : 0 ≤ ε := acc_nonneg h
  have Nu : 0 ≤ N * f.u := by positivity
  have dsmall : d ≤ 1 / 4096 := by linarith
  obtain ⟨q0, q3⟩ := C127_norm_encoded hp h (by nlinarith) (V3.smul axis angle) hv hf hn N hNe (by linarith)
  obtain ⟨E, hE⟩ : ∃ E, E = 11 / 10 * ε + (3 * N + 10) * f.u := ⟨_, rfl⟩
  rw [← hE] at q0 q3
  obtain ⟨y, hy⟩ : ∃ y, y = DQuat.new_from_screw_parameters l m N D := ⟨_, rfl⟩
  have hmo : y.IsMotion := hy ▸ screw_isMotion hlm N D
  obtain ⟨c1, c2, -, -⟩ := screw_comp l m N D
  rw [← hy] at c1 c2 ht
  have hq : ∀ i, ((Quat.rotation_norm_encoded (V3.smul axis angle)).comp i).IsFin ∧
      |((Quat.rotation_norm_encoded (V3.smul axis angle)).comp i).toReal - y.q_real.comp i| ≤ E := by
    have k : ∀ j, ((Quat.rotation_norm_encoded (V3.smul axis angle)).q j).IsFin ∧
      |((Quat.rotation_norm_encoded (V3.smul axis angle)).q j).toReal - y.q_real.q j| ≤ E := by
      intro j
      rw [c2 j, hl j]
      exact q3 j
    intro i
    fin_cases i
    · change _ ∧ |_ - y.q_real.q0| ≤ E
      rw [c1]
      exact q0
    exacts [k 0, k 1, k 2]
  obtain ⟨w, w1, w2, w3⟩ := Quat.normalize_near hp (e := E) (by linarith) hmo.norm hq
  have hsz' : ‖y.get_translation.toH‖ ≤ 2 * P := by
    rw [ht, ht, ht] at hsz
    exact vec_norm (by linarith) hsz
  have P0 : 0 < P := by linarith
  have hPσ : P ≤ P / Real.sin (N / 2) := by
    rw [le_div_iff₀ hσ]
    nlinarith
  have hov' : 16 * (2 + 2 * P) ^ 2 ≤ (2 : ℝ) ^ f.emax := by
    refine le_trans ?_ hov
    have := pow_le_pow_left₀ (by linarith) (show 2 + 2 * P ≤ 2 + 2 * (P / Real.sin (N / 2)) by linarith) 2
    linarith
  obtain ⟨Y, ⟨y1, y2⟩, -, y3⟩ := DQuat.build_close hp hP (e := 3 * E + 12 * f.u) (d := 0) (by linarith) (by norm_num) hmo.norm w3 hsz'
    (fun i => ⟨htf i, by rw [ht, sub_self, abs_zero, mul_zero]⟩) hov' true
  have hYy : Y.toD = y.toD := by
    rw [DQuat.toD_inj]
    exact ⟨y1, by rw [y2, ← dual_of_translation hmo]⟩
  have cl := (y3.congr hYy)
  rw [hy] at cl
  have ed : 2 * (3 * E + 12 * f.u) + 2 * 0 + 15 * f.u + ε + f.u = d := by rw [hE, hde]; ring
  have res := C143_parameters_partial hw hlm cl h hA hT N0 hN hσ (by rw [ed]; exact hd) hP hov rfl
  rw [ed] at res
  refine ⟨_, _, _, _, ?_, res⟩
  unfold Examples.screw_parameters DQuat.new_from_rot_trans
  dsimp only
  rw [w1]
  rfl

/-- **C161.** The example program itself: turning by `angle` about the z axis and moving by `D` along it, the reported line is the z axis, with the
angle and the distance that went in. -/
theorem C161_screw_z [RealParams] [Libm f] (hp : 11 ≤ f.p) (hw : f.Wide) {ε : ℝ} (h : SinCosAcc f ε) (hA : Atan2Acc f ε) (hT : TanAcc f ε)
    (angle D : Flt f) (ha : angle.IsFin) (hD : D.IsFin) (a1 : 1 / 2 ≤ angle.toReal) (a2 : angle.toReal ≤ 6) {P d σ : ℝ}
    (hsz : |D.toReal| ≤ 2 * P) (hP : 1 / 8 ≤ P) (hde : d = 38 / 5 * ε + (18 * angle.toReal + 100) * f.u)
    (hσ : σ = Real.sin (angle.toReal / 2)) (hd : 4096 * d ≤ σ) (hov : 16 * (2 + 2 * (P / σ)) ^ 2 ≤ (2 : ℝ) ^ f.emax) :
    ∃ l' m' θ' D', Examples.screw_parameters V3.z_axis angle ⟨![0, 0, D]⟩ = .ok (l', m', θ', D') ∧
      (∀ i, (l' i).IsFin ∧ |(l' i).toReal - (V3.z_axis : Vec 3 ℝ) i| ≤ 30 * (d / σ)) ∧
      (∀ i, (m' i).IsFin ∧ |(m' i).toReal| ≤ 283 * (P * (d / σ ^ 2))) ∧
      (θ'.IsFin ∧ |θ'.toReal - angle.toReal| ≤ 41 * d) ∧ D'.IsFin ∧ |D'.toReal - D.toReal| ≤ 248 * (P * (d / σ)) := by
  have hp8 : 8 ≤ f.p := by omega
  have hu0 := f.u_pos
  have hu : f.u ≤ 1 / 2048 := by
    unfold Fmt.u
    calc (2 : ℝ) ^ (-(f.p : ℤ)) ≤ 2 ^ (-11 : ℤ) := zpow_le_zpow_right₀ (by norm_num) (by omega)
      _ = _ := by norm_num
  have hπ := Real.pi_gt_three
  have σ0 : 0 < σ := by rw [hσ]; exact Real.sin_pos_of_pos_of_lt_pi (by linarith) (by linarith)
  have z : Near ((0 : Flt f) * angle) 0 0 := ⟨(zero_mul_fin ha).1, by rw [(zero_mul_fin ha).2]; simp⟩
  have v0 : (V3.smul (V3.z_axis : Vec 3 (Flt f)) angle) 0 = 0 * angle := rfl
  have v1 : (V3.smul (V3.z_axis : Vec 3 (Flt f)) angle) 1 = 0 * angle := rfl
  have v2 : (V3.smul (V3.z_axis : Vec 3 (Flt f)) angle) 2 = angle := one_mul'
  have fv : ∀ k, ((V3.smul (V3.z_axis : Vec 3 (Flt f)) angle) k).IsFin := by
    intro k; fin_cases k
    exacts [z.fin, z.fin, (v2 ▸ ha :)]
  have t0 : ((V3.smul (V3.z_axis : Vec 3 (Flt f)) angle) 0).toReal = 0 := (zero_mul_fin ha).2
  have t1 : ((V3.smul (V3.z_axis : Vec 3 (Flt f)) angle) 1).toReal = 0 := (zero_mul_fin ha).2
  have t2 : ((V3.smul (V3.z_axis : Vec 3 (Flt f)) angle) 2).toReal = angle.toReal := by rw [v2]
  have fn : (V3.norm2 (V3.smul (V3.z_axis : Vec 3 (Flt f)) angle)).IsFin := by
    have zz : Near ((0 * angle) * (0 * angle) : Flt f) (0 * 0) f.u :=
      Near.mul hp8 (A := 0) (C := 0) (D := 0) (B := 0) z z (by simp) (by simp) (by simp) (by norm_num) (by norm_num) (by linarith)
    have aa : Near (angle * angle) (angle.toReal * angle.toReal) (37 * f.u) :=
      Near.mul hp8 (A := 6) (C := 6) (D := 6) (B := 36) (Near.of_fin ha) (Near.of_fin ha) (by rw [abs_of_nonneg] <;> linarith)
        (by rw [abs_of_nonneg] <;> linarith) (by rw [abs_of_nonneg] <;> linarith) (by norm_num) (by norm_num) (by linarith)
    have s1 := Near.add hp8 (B := 1) (e := 3 * f.u) zz zz (by norm_num; linarith) (by norm_num) (by linarith)
    have s2 := Near.add hp8 (B := 37) (e := 77 * f.u) s1 aa (by
      rw [mul_zero, add_zero, zero_add, abs_of_nonneg (by positivity)]
      nlinarith) (by norm_num) (by linarith)
    have pos : 0 ≤ ((0 * angle) * (0 * angle) + (0 * angle) * (0 * angle) + angle * angle : Flt f).toReal := by
      have h1 := (_root_.abs_le.mp s2.err).1
      nlinarith
    have fin := (sqrt_rel s2.fin pos).1
    change (sqrt _).IsFin
    rw [v0, v1, v2]
    exact fin
  have hn : ∀ k, ((V3.smul (V3.z_axis : Vec 3 (Flt f)) angle) k).toReal = 0 ∨
      (2 : ℝ) ^ f.emin ≤ ((V3.smul (V3.z_axis : Vec 3 (Flt f)) angle) k).toReal ^ 2 := by
    intro k
    fin_cases k
    · exact .inl t0
    · exact .inl t1
    · right
      change _ ≤ ((V3.smul (V3.z_axis : Vec 3 (Flt f)) angle) 2).toReal ^ 2
      rw [t2]
      have : (2 : ℝ) ^ f.emin ≤ (2 : ℝ) ^ (-2 : ℤ) := zpow_le_zpow_right₀ (by norm_num) (by have := hw.low; omega)
      norm_num at this
      nlinarith
  have hline : IsLine (V3.z_axis : Vec 3 ℝ) V3.zero := by
    constructor
    · change (0 : ℝ) ^ 2 + 0 ^ 2 + 1 ^ 2 = 1; norm_num
    · change (0 : ℝ) * 0 + 0 * 0 + 1 * 0 = 0; norm_num
  have hN : angle.toReal = √(∑ k, ((V3.smul (V3.z_axis : Vec 3 (Flt f)) angle) k).toReal ^ 2) := by
    rw [Fin.sum_univ_three, t0, t1, t2, show (0 : ℝ) ^ 2 + 0 ^ 2 + angle.toReal ^ 2 = angle.toReal ^ 2 by ring, Real.sqrt_sq (by linarith)]
  obtain ⟨l', m', θ', D', r0, r1, r2, r3⟩ := C161_screw_parameters hw h hA hT V3.z_axis angle ⟨![0, 0, D]⟩ fv fn hn (D := D.toReal) (P := P) hN
    (by linarith) hline (by
      intro k; fin_cases k
      · change (0 : ℝ) = ((V3.smul (V3.z_axis : Vec 3 (Flt f)) angle) 0).toReal / _
        rw [t0, zero_div]
      · change (0 : ℝ) = ((V3.smul (V3.z_axis : Vec 3 (Flt f)) angle) 1).toReal / _
        rw [t1, zero_div]
      · change (1 : ℝ) = ((V3.smul (V3.z_axis : Vec 3 (Flt f)) angle) 2).toReal / _
        rw [t2, div_self (by linarith)])
    (by intro k; fin_cases k; exacts [isFin_zero, isFin_zero, hD])
    (by
      intro k
      rw [screw_translation hline]
      fin_cases k
      · change (0 : Flt f).toReal = D.toReal * 0 + _ * 0 - _ * (0 * 1 - 0 * 0)
        rw [toReal_zero]; ring
      · change (0 : Flt f).toReal = D.toReal * 0 + _ * 0 - _ * (0 * 0 - 0 * 1)
        rw [toReal_zero]; ring
      · change D.toReal = D.toReal * 1 + _ * 0 - _ * (0 * 0 - 0 * 0)
        ring)
    (by
      change (0 : Flt f).toReal ^ 2 + (0 : Flt f).toReal ^ 2 + D.toReal ^ 2 ≤ _
      rw [toReal_zero, ← sq_abs D.toReal]
      have := pow_le_pow_left₀ (abs_nonneg _) hsz 2
      linarith) hP hde (hσ ▸ σ0) (hσ ▸ hd) (hσ ▸ hov)
  rw [← hσ] at r1 r2 r3
  refine ⟨l', m', θ', D', r0, r1, fun i => ⟨(r2 i).1, ?_⟩, r3⟩
  have e : (V3.zero : Vec 3 ℝ) i = 0 := by fin_cases i <;> rfl
  have := (r2 i).2
  rw [e, sub_zero] at this
  exact this

/-- The error of `from_euler_angles`, simplified. -/
private theorem euler_err (hp : 8 ≤ f.p) {ε : ℝ} (h0 : 0 ≤ ε) (hε : ε + f.u ≤ 1 / 100) :
    2 * ((1 + f.u) ^ 3 * (1 + (ε + f.eta)) ^ 3 - 1) + (1 + f.u) ^ 3 * (f.eta * 6) ≤ 7 * (ε + f.u) := by
  have hu0 := f.u_pos
  have hη0 := f.eta_pos
  have hη := Fmt.eta_small hp
  obtain ⟨s, hs⟩ : ∃ s, s = f.u + (ε + f.eta) + f.u * (ε + f.eta) := ⟨_, rfl⟩
  have e : (1 + f.u) ^ 3 * (1 + (ε + f.eta)) ^ 3 = (1 + s) ^ 3 := by rw [hs]; ring
  have h1 : f.u * (ε + f.eta) ≤ 1 / 100 * (ε + f.eta) := mul_le_mul_of_nonneg_right (by linarith) (by linarith)
  have s0 : 0 ≤ s := by rw [hs]; positivity
  have s1 : s ≤ 103 / 100 * (ε + f.u) := by rw [hs]; linarith
  have s2 : s ≤ 103 / 10000 := by linarith
  have s3 : (1 + s) ^ 3 - 1 ≤ 31 / 10 * s := by nlinarith [mul_nonneg s0 s0, mul_nonneg (mul_nonneg s0 s0) s0]
  have k : (1 + f.u) ^ 3 ≤ 2 := by
    have : (1 + f.u) ^ 3 ≤ (1 + 1 / 100) ^ 3 := pow_le_pow_left₀ (by linarith) (by linarith) 3
    norm_num at this
    linarith
  have k2 : (1 + f.u) ^ 3 * (f.eta * 6) ≤ 2 * (f.eta * 6) := mul_le_mul_of_nonneg_right k (by linarith)
  rw [e]
  linarith

/-- The quaternion of the Euler angles and the homogeneous matrix built from it. -/
private theorem euler_near [RealParams] [Libm f] (hp : 11 ≤ f.p) (hw : f.Wide) {ε : ℝ} (h : SinCosAcc f ε) (hε : ε + f.u ≤ 1 / 100) (yay pitch roll : Flt f)
    (hy : yay.IsFin) (hpi : pitch.IsFin) (hr : roll.IsFin) :
    (∀ i, ((Quat.from_euler_angles yay pitch roll).comp i).IsFin ∧ |((Quat.from_euler_angles yay pitch roll).comp i).toReal
      - (Quat.from_euler_angles yay.toReal pitch.toReal roll.toReal).comp i| ≤ 7 * (ε + f.u)) ∧
    ∀ i j, ((Quat.from_euler_angles yay pitch roll).to_rotation i j).IsFin ∧ |((Quat.from_euler_angles yay pitch roll).to_rotation i j).toReal
      - euler_to_rotation yay.toReal pitch.toReal roll.toReal none i j| ≤ 35 * ε + 52 * f.u := by
  have hp8 : 8 ≤ f.p := by omega
  have hη := Fmt.eta_small hp8
  have hu0 := f.u_pos
  have ε0 := acc_nonneg h
  have hx := hw.high
  obtain ⟨a, b⟩ := C109_quaternion_euler h (by linarith) (by omega) yay pitch roll hy hpi hr
  have er := euler_err hp8 ε0 hε
  have key : ∀ i, ((Quat.from_euler_angles yay pitch roll).comp i).IsFin ∧ |((Quat.from_euler_angles yay pitch roll).comp i).toReal
      - (Quat.from_euler_angles yay.toReal pitch.toReal roll.toReal).comp i| ≤ 7 * (ε + f.u) := by
    intro i
    fin_cases i
    exacts [⟨a.1, a.2.trans er⟩, ⟨(b 0).1, (b 0).2.trans er⟩, ⟨(b 1).1, (b 1).2.trans er⟩, ⟨(b 2).1, (b 2).2.trans er⟩]
  obtain ⟨n, R, -⟩ := C53_from_euler_angles yay.toReal pitch.toReal roll.toReal
  refine ⟨key, fun i j => ?_⟩
  have := C126_to_rotation hp8 _ _ _ (by linarith) n key i j
  rw [R] at this
  exact ⟨this.1, this.2.trans (by linarith)⟩

/-- A row of the homogeneous matrix times a vector with last component 0. -/
private theorem row_near (hp : 8 ≤ f.p) {a b c t x y z : Flt f} {A B C P δ : ℝ} (hP : 1 / 8 ≤ P) (hδ0 : 0 ≤ δ) (hδ : δ ≤ 1 / 1000) (hbig : f.Big (4 * P))
    (ha : Near a A δ) (hb : Near b B δ) (hc : Near c C δ) (ht : t.IsFin) (A1 : |A| ≤ 1) (B1 : |B| ≤ 1) (C1 : |C| ≤ 1) (hx : x.IsFin) (hy : y.IsFin)
    (hz : z.IsFin) (x1 : |x.toReal| ≤ P) (y1 : |y.toReal| ≤ P) (z1 : |z.toReal| ≤ P) :
    Near (a * x + b * y + c * z + t * 0) (A * x.toReal + B * y.toReal + C * z.toReal) (3 * P * (δ + 4 * f.u)) := by
  have hu0 := f.u_pos
  have hu := Fmt.u_le_of_p hp
  have P0 : 0 ≤ P := by linarith
  have Pu : 0 ≤ f.u * P := by positivity
  have Pd : 0 ≤ P * δ := by positivity
  have Pd' : P * δ ≤ P * (1 / 1000) := mul_le_mul_of_nonneg_left hδ P0
  have Pu' : f.u * P ≤ 1 / 256 * P := mul_le_mul_of_nonneg_right hu P0
  have u8 : f.u * (1 / 8) ≤ f.u * P := mul_le_mul_of_nonneg_left hP hu0.le
  have m : ∀ {g w : Flt f} {G : ℝ}, Near g G δ → |G| ≤ 1 → w.IsFin → |w.toReal| ≤ P → Near (g * w) (G * w.toReal) (P * δ + 21 / 20 * (f.u * P)) :=
    fun hg G1 hw w1 => Near.mul' hp (A := 1001 / 1000) (C := P) (D := P) (B := 1001 / 1000 * P) (hbig.mono (by linarith)) hg (Near.of_fin hw)
      (by linarith) w1 (by linarith) le_rfl (by linarith)
  have pr : ∀ {G w : ℝ}, |G| ≤ 1 → |w| ≤ P → |G * w| ≤ P := fun hG hw => by
    rw [abs_mul]
    exact (mul_le_mul hG hw (abs_nonneg _) zero_le_one).trans (by linarith)
  have p1 := pr A1 x1
  have p2 := pr B1 y1
  have p3 := pr C1 z1
  have q1 := abs_add_le (A * x.toReal) (B * y.toReal)
  have q2 := abs_add_le (A * x.toReal + B * y.toReal) (C * z.toReal)
  have s1 := Near.add' (B := 21 / 10 * P) (e := 2 * (P * δ) + 21 / 5 * (f.u * P)) (hbig.mono (by linarith)) (m ha A1 hx x1) (m hb B1 hy y1) (by linarith) (by linarith)
  have s2 := Near.add' (B := 31 / 10 * P) (e := 3 * (P * δ) + 167 / 20 * (f.u * P)) (hbig.mono (by linarith)) s1 (m hc C1 hz z1) (by linarith) (by linarith)
  have z0 : Near (t * 0) 0 0 := ⟨(mul_zero_fin ht).1, by rw [(mul_zero_fin ht).2]; simp⟩
  have s3 := Near.add' (B := 31 / 10 * P) (e := 3 * P * (δ + 4 * f.u)) (hbig.mono (by linarith)) s2 z0 (by rw [add_zero]; linarith) (by linarith)
  rw [add_zero] at s3
  exact s3

private theorem rot_abs_le {R : Mat 3 ℝ} (hR : IsRot R) (i j : Fin 3) : |R i j| ≤ 1 := by
  have three : ∀ {a b c : ℝ}, a * a + b * b + c * c = 1 → |a| ≤ 1 ∧ |b| ≤ 1 ∧ |c| ≤ 1 := by
    intro a b c h
    have h1 := mul_self_nonneg a
    have h2 := mul_self_nonneg b
    have h3 := mul_self_nonneg c
    refine ⟨?_, ?_, ?_⟩ <;> apply abs_le_one_iff_mul_self_le_one.2 <;> linarith
  obtain ⟨r00, r11, r22, -⟩ := SO3Rels.of_mem hR
  have h0 := three r00
  have h1 := three r11
  have h2 := three r22
  fin_cases i <;> fin_cases j
  exacts [h0.1, h0.2.1, h0.2.2, h1.1, h1.2.1, h1.2.2, h2.1, h2.2.1, h2.2.2]

private theorem sq_le {a b c P : ℝ} (hP : 0 ≤ P) (h : a ^ 2 + b ^ 2 + c ^ 2 ≤ P ^ 2) : |a| ≤ P ∧ |b| ≤ P ∧ |c| ≤ P := by
  have h1 := sq_nonneg a
  have h2 := sq_nonneg b
  have h3 := sq_nonneg c
  exact ⟨abs_le_of_sq_le_sq (by linarith) hP, abs_le_of_sq_le_sq (by linarith) hP, abs_le_of_sq_le_sq (by linarith) hP⟩

private theorem big_of (hp : 8 ≤ f.p) {P B : ℝ} (hP : 1 / 8 ≤ P) (hB0 : 0 ≤ B) (hB : B ≤ 4 * P) (hov : 16 * (2 + 6 * P) ^ 2 ≤ (2 : ℝ) ^ f.emax) : f.Big B := by
  have hu := Fmt.u_le_of_p hp
  have hu0 := f.u_pos
  unfold Fmt.Big
  rw [zpow_add₀ (by norm_num), zpow_one]
  have : (1 + f.u) * B ≤ 2 * B := mul_le_mul_of_nonneg_right (by linarith) hB0
  nlinarith

/-- **C161.** `dual_quaternion_transform_point`: the point the homogeneous matrix gives and the one the dual quaternion made from that matrix gives
are both the exactly rotated point, up to rounding; the fourth component of the first is 0. -/
theorem C161_points [RealParams] [Libm f] (hp : 11 ≤ f.p) (hw : f.Wide) {ε : ℝ} (h : SinCosAcc f ε) (hε : ε + f.u ≤ 1 / 52000) (yay pitch roll : Flt f)
    (hy : yay.IsFin) (hpi : pitch.IsFin) (hr : roll.IsFin) (t p : Vec 3 (Flt f)) {P : ℝ} (hP : 1 / 8 ≤ P)
    (ht : ∀ i, (t i).IsFin) (ht2 : (t 0).toReal ^ 2 + (t 1).toReal ^ 2 + (t 2).toReal ^ 2 ≤ (2 * P) ^ 2)
    (hpf : ∀ i, (p i).IsFin) (hp2 : (p 0).toReal ^ 2 + (p 1).toReal ^ 2 + (p 2).toReal ^ 2 ≤ P ^ 2)
    (hov : 16 * (2 + 6 * P) ^ 2 ≤ (2 : ℝ) ^ f.emax) :
    ∃ e v, Examples.transform_point yay pitch roll t p = .ok (e, v) ∧
      (∀ i : Fin 3, ((e i.castSucc).IsFin ∧ |(e i.castSucc).toReal
          - M33.mulVec (euler_to_rotation yay.toReal pitch.toReal roll.toReal none) p.re3 i| ≤ 3 * P * (35 * ε + 56 * f.u)) ∧
        (v i).IsFin ∧ |(v i).toReal - M33.mulVec (euler_to_rotation yay.toReal pitch.toReal roll.toReal none) p.re3 i| ≤ 13400 * P * (ε + f.u)) ∧
      (e 3).IsFin ∧ (e 3).toReal = 0 := by
  have hp8 : 8 ≤ f.p := by omega
  have hu0 := f.u_pos
  have ε0 := acc_nonneg h
  have P0 : 0 ≤ P := by linarith
  obtain ⟨-, hM⟩ := euler_near hp hw h (by linarith) yay pitch roll hy hpi hr
  have hrot : IsRot (euler_to_rotation yay.toReal pitch.toReal roll.toReal none) := (C73_euler_to_rotation_partial _ _ _).2.2 none
  obtain ⟨R, hR⟩ : ∃ R, R = euler_to_rotation yay.toReal pitch.toReal roll.toReal none := ⟨_, rfl⟩
  rw [← hR] at hM hrot ⊢
  unfold Examples.transform_point
  generalize (Quat.from_euler_angles yay pitch roll) = q at hM ⊢
  obtain ⟨x, y, x1, -, x2, x3⟩ := C136_from_homogeneous (P := P) (δ := 35 * ε + 52 * f.u) hp (homogeneous_from_quaternion q t) (homogeneous_from_rotation R t.re3) hP (by linarith)
    (isRigid_from hrot _) ht2
    (by
      intro i j; fin_cases i <;> fin_cases j
      exacts [hM 0 0, hM 0 1, hM 0 2, hM 1 0, hM 1 1, hM 1 2, hM 2 0, hM 2 1, hM 2 2])
    (by
      have k : ∀ i, (t i).IsFin ∧ |(t i).toReal - t.re3 i| ≤ P * (35 * ε + 52 * f.u) := fun i => ⟨ht i, by
        change |(t i).toReal - (t i).toReal| ≤ _
        rw [sub_self, abs_zero]; positivity⟩
      intro i; fin_cases i
      exacts [k 0, k 1, k 2])
    (by
      refine le_trans ?_ hov
      have := pow_le_pow_left₀ (by linarith) (show 2 + 2 * P ≤ 2 + 6 * P by linarith) 2
      linarith)
  have hyR : y.q_real.to_rotation = R := by
    have h : homogeneous_from_rotation y.q_real.to_rotation y.get_translation = homogeneous_from_rotation R t.re3 := x2
    refine Mat.ext (funext fun i => funext fun j => ?_)
    have := congrArg (fun M : Mat 4 ℝ => M i.castSucc j.castSucc) h
    fin_cases i <;> fin_cases j <;> exact this
  obtain ⟨τ, hτ⟩ : ∃ τ, τ = (38 * (35 * ε + 52 * f.u) + 189 * f.u) + 11 * f.u + (38 * (35 * ε + 52 * f.u) + 189 * f.u) * (11 * f.u) := ⟨_, rfl⟩
  have e1 : (1 + (38 * (35 * ε + 52 * f.u) + 189 * f.u)) ^ 2 * (1 + 11 * f.u) ^ 2 = (1 + τ) ^ 2 := by rw [hτ]; ring
  have τ1 : τ ≤ 2177 * (ε + f.u) := by
    have : (38 * (35 * ε + 52 * f.u) + 189 * f.u) * (11 * f.u) ≤ 1 / 20 * (11 * f.u) := mul_le_mul_of_nonneg_right (by linarith) (by linarith)
    rw [hτ]; linarith
  have τ0 : 0 ≤ τ := by rw [hτ]; positivity
  have τ2 : τ ≤ 1 / 20 := by linarith
  have e2 : (1 + τ) ^ 2 - 1 ≤ 41 / 20 * τ := by nlinarith
  have tp := C161_transform_point hp8 x3 hP (by rw [e1]; linarith) hov p hpf hp2
  rw [hyR, e1] at tp
  have e3 : 3 * P * ((1 + τ) ^ 2 - 1) ≤ 13400 * P * (ε + f.u) := by
    have : P * ((1 + τ) ^ 2 - 1) ≤ P * (41 / 20 * (2177 * (ε + f.u))) := mul_le_mul_of_nonneg_left (by linarith) P0
    have : 0 ≤ P * (ε + f.u) := by positivity
    linarith
  obtain ⟨b0, b1, b2⟩ := sq_le P0 hp2
  have hbig : f.Big (4 * P) := big_of hp8 hP (by linarith) le_rfl hov
  have row : ∀ i : Fin 3, Near (q.to_rotation i 0 * p 0 + q.to_rotation i 1 * p 1 + q.to_rotation i 2 * p 2 + t i * 0)
      (R i 0 * (p 0).toReal + R i 1 * (p 1).toReal + R i 2 * (p 2).toReal) (3 * P * ((35 * ε + 52 * f.u) + 4 * f.u)) := fun i =>
    row_near hp8 hP (by positivity) (by linarith) hbig ⟨(hM i 0).1, (hM i 0).2⟩ ⟨(hM i 1).1, (hM i 1).2⟩ ⟨(hM i 2).1, (hM i 2).2⟩ (ht i)
      (rot_abs_le hrot i 0) (rot_abs_le hrot i 1) (rot_abs_le hrot i 2) (hpf 0) (hpf 1) (hpf 2) b0 b1 b2
  refine ⟨M44.mulVec (homogeneous_from_quaternion q t) ⟨![p 0, p 1, p 2, 0]⟩, x.transform_point p, ?_, fun i => ⟨?_, (tp i).1, (tp i).2.trans e3⟩, ?_⟩
  · dsimp only
    rw [x1]
    rfl
  · rw [show (35 * ε + 56 * f.u) = (35 * ε + 52 * f.u) + 4 * f.u by ring]
    fin_cases i
    exacts [⟨(row 0).fin, (row 0).err⟩, ⟨(row 1).fin, (row 1).err⟩, ⟨(row 2).fin, (row 2).err⟩]
  · have z0 := zero_mul_fin (hpf 0)
    have z1 := zero_mul_fin (hpf 1)
    have z2 := zero_mul_fin (hpf 2)
    have z3 : ((1 : Flt f) * 0).IsFin ∧ ((1 : Flt f) * 0).toReal = 0 := mul_zero_fin isFin_one
    have s1 := add_zero_val z0.1 z1.1 z1.2
    have s2 := add_zero_val s1.1 z2.1 z2.2
    have s3 := add_zero_val s2.1 z3.1 z3.2
    exact ⟨s3.1, s3.2.trans (s2.2.trans (s1.2.trans z0.2))⟩

/-- The dual quaternion of a translation. -/
private theorem close_translation (hp : 8 ≤ f.p) (t : Vec 3 (Flt f)) (ht : ∀ i, (t i).IsFin) {P : ℝ} (hP : 1 / 8 ≤ P)
    (h : (t 0).toReal ^ 2 + (t 1).toReal ^ 2 + (t 2).toReal ^ 2 ≤ (2 * P) ^ 2) :
    (DQuat.new_from_translation t).Close (DQuat.new_from_translation t.re3) P f.u := by
  have hu0 := f.u_pos
  have hη := Fmt.eta_small hp
  have hη0 := f.eta_pos
  have e1 : (Quat.one : Quat (Flt f)).reH = 1 := by
    ext
    exacts [toReal_one (f := f), toReal_zero (f := f), toReal_zero (f := f), toReal_zero (f := f)]
  have g1 : (Quat.one : Quat ℝ).toH = 1 := by ext <;> rfl
  have Pu : 1 / 8 * f.u ≤ P * f.u := mul_le_mul_of_nonneg_right hP hu0.le
  refine ⟨fun i => ⟨?_, ?_⟩, ⟨?_, ?_⟩, ?_, ?_, ?_⟩
  · fin_cases i
    exacts [isFin_one, isFin_zero, isFin_zero, isFin_zero]
  · fin_cases i
    exacts [isFin_zero, (half_val (ht 0)).1, (half_val (ht 1)).1, (half_val (ht 2)).1]
  · change normSq (Quat.one : Quat ℝ).toH = 1
    rw [g1, map_one]
  · change ((Quat.one : Quat ℝ).toH * star (DQuat.new_from_translation t.re3).q_dual.toH).re = 0
    rw [g1, one_mul, re_star]
    rfl
  · have : (DQuat.new_from_translation t.re3).q_dual.toH = (⟨![(t 0).toReal / (1 + 1), (t 1).toReal / (1 + 1), (t 2).toReal / (1 + 1)]⟩ : Vec 3 ℝ).toH := by
      ext <;> rfl
    rw [this]
    refine vec_norm (by linarith) ?_
    change ((t 0).toReal / (1 + 1)) ^ 2 + ((t 1).toReal / (1 + 1)) ^ 2 + ((t 2).toReal / (1 + 1)) ^ 2 ≤ P ^ 2
    linarith
  · change ‖(Quat.one : Quat (Flt f)).reH - (Quat.one : Quat ℝ).toH‖ ≤ f.u
    rw [e1, g1, sub_self, norm_zero]
    exact hu0.le
  · refine (Quat.reH_sub_le _ _ (e := f.eta) fun i => ?_).trans (by linarith)
    fin_cases i
    · change |(0 : Flt f).toReal - 0| ≤ _
      rw [toReal_zero, sub_self, abs_zero]
      exact hη0.le
    · change |(t 0 / (1 + 1)).toReal - (t 0).toReal / (1 + 1)| ≤ _
      rw [one_add_one_eq_two (R := ℝ)]
      exact (half_val (ht 0)).2
    · change |(t 1 / (1 + 1)).toReal - (t 1).toReal / (1 + 1)| ≤ _
      rw [one_add_one_eq_two (R := ℝ)]
      exact (half_val (ht 1)).2
    · change |(t 2 / (1 + 1)).toReal - (t 2).toReal / (1 + 1)| ≤ _
      rw [one_add_one_eq_two (R := ℝ)]
      exact (half_val (ht 2)).2

/-- The dual quaternion of a rotation. -/
private theorem close_rotation {q : Quat (Flt f)} {r : Quat ℝ} {P e : ℝ} (hP : 0 ≤ P) (hr : normSq r.toH = 1)
    (hq : ∀ i, (q.comp i).IsFin ∧ |(q.comp i).toReal - r.comp i| ≤ e) :
    (DQuat.new_from_rotation q).Close (DQuat.new_from_rotation r) P (2 * e) := by
  have e0 : 0 ≤ e := (abs_nonneg _).trans (hq 0).2
  have z1 : (Quat.zero : Quat (Flt f)).reH = 0 := by
    ext
    exacts [toReal_zero (f := f), toReal_zero (f := f), toReal_zero (f := f), toReal_zero (f := f)]
  have z2 : (Quat.zero : Quat ℝ).toH = 0 := by ext <;> rfl
  refine ⟨fun i => ⟨(hq i).1, ?_⟩, ⟨hr, ?_⟩, ?_, ?_, ?_⟩
  · fin_cases i
    exacts [isFin_zero, isFin_zero, isFin_zero, isFin_zero]
  · change (r.toH * star (Quat.zero : Quat ℝ).toH).re = 0
    rw [z2, star_zero, mul_zero]
    rfl
  · change ‖(Quat.zero : Quat ℝ).toH‖ ≤ P
    rw [z2, norm_zero]
    exact hP
  · exact Quat.reH_sub_le q r fun i => (hq i).2
  · change ‖(Quat.zero : Quat (Flt f)).reH - (Quat.zero : Quat ℝ).toH‖ ≤ P * (2 * e)
    rw [z1, z2, sub_self, norm_zero]
    positivity

/-- Translation after rotation, exactly. -/
private theorem exact_product (t : Vec 3 ℝ) (r : Quat ℝ) {y : DQuat ℝ} (h1 : y.q_real.toH = r.toH) (h2 : y.q_dual.toH = ((1 : ℝ) / (1 + 1)) • t.toH * r.toH) :
    ((DQuat.new_from_translation t).mul (DQuat.new_from_rotation r)).toD = y.toD := by
  rw [DQuat.toD_inj, h1, h2]
  have g1 : (Quat.one : Quat ℝ).toH = 1 := by ext <;> rfl
  have z2 : (Quat.zero : Quat ℝ).toH = 0 := by ext <;> rfl
  have ht : (DQuat.new_from_translation t).q_dual.toH = ((1 : ℝ) / (1 + 1)) • t.toH := by
    ext
    · rw [re_smul]; exact (mul_zero _).symm
    · rw [imI_smul]; change t 0 / (1 + 1) = (1 / (1 + 1)) * t 0; ring
    · rw [imJ_smul]; change t 1 / (1 + 1) = (1 / (1 + 1)) * t 1; ring
    · rw [imK_smul]; change t 2 / (1 + 1) = (1 / (1 + 1)) * t 2; ring
  constructor
  · change ((Quat.one : Quat ℝ).mul r).toH = r.toH
    rw [Quat.toH_mul, g1, one_mul]
  · change (((Quat.one : Quat ℝ).mul Quat.zero).add ((DQuat.new_from_translation t).q_dual.mul r)).toH = _
    rw [Quat.toH_add, Quat.toH_mul, Quat.toH_mul, z2, mul_zero, zero_add, ht]

private theorem hfr_entry {T : Type} [Zero T] [One T] (M : Mat 3 T) (p : Vec 3 T) (i j : Fin 3) :
    homogeneous_from_rotation M p i.castSucc j.castSucc = M i j := by
  fin_cases i <;> fin_cases j <;> rfl

private theorem hfr_trans {T : Type} [Zero T] [One T] (M : Mat 3 T) (p : Vec 3 T) (i : Fin 3) : homogeneous_from_rotation M p i.castSucc 3 = p i := by
  fin_cases i <;> rfl

/-- **C161.** `dual_quaternions`: all the values it prints. `t` has the rotation of the angles up to `35 ε + 52 u` and exactly the translation given;
`double`, the matrix of the dual quaternion of `t`, is that rigid motion again; `normal` and the product `combined` are both close to one
exact dual quaternion of the motion with this rotation and the second translation, and so is `combined2`, whose rotation went through a
matrix, to one of that motion (with either sign). -/
theorem C161_dual_quaternions [RealParams] [Libm f] (hp : 11 ≤ f.p) (hw : f.Wide) {ε : ℝ} (h : SinCosAcc f ε) (hε : ε + f.u ≤ 1 / 52000)
    (yay pitch roll : Flt f) (hy : yay.IsFin) (hpi : pitch.IsFin) (hr : roll.IsFin) (t x : Vec 3 (Flt f)) {P : ℝ} (hP : 1 / 8 ≤ P)
    (ht : ∀ i, (t i).IsFin) (ht2 : (t 0).toReal ^ 2 + (t 1).toReal ^ 2 + (t 2).toReal ^ 2 ≤ (2 * P) ^ 2)
    (hx : ∀ i, (x i).IsFin) (hx2 : (x 0).toReal ^ 2 + (x 1).toReal ^ 2 + (x 2).toReal ^ 2 ≤ (2 * P) ^ 2)
    (hov : 16 * (2 + 4 * P) ^ 2 ≤ (2 : ℝ) ^ f.emax) {R : Mat 3 ℝ} (hR : R = euler_to_rotation yay.toReal pitch.toReal roll.toReal none) :
    ∃ o, Examples.dual_quaternions yay pitch roll t x = .ok o ∧
      (∀ i j : Fin 3, ((o.t i.castSucc j.castSucc).IsFin ∧ |(o.t i.castSucc j.castSucc).toReal - R i j| ≤ 35 * ε + 52 * f.u) ∧
        o.t i.castSucc 3 = t i ∧
        ((o.double i.castSucc j.castSucc).IsFin ∧ |(o.double i.castSucc j.castSucc).toReal - R i j| ≤ 6650 * ε + 10842 * f.u) ∧
        ((o.double i.castSucc 3).IsFin ∧ |(o.double i.castSucc 3).toReal - (t i).toReal| ≤ P * (6650 * ε + 10842 * f.u)) ∧
        o.double 3 j.castSucc = 0 ∧ o.double 3 3 = 1) ∧
      (∃ y : DQuat ℝ, y.to_homogeneous = homogeneous_from_rotation R x.re3 ∧ o.normal.Close y P (42 * ε + 81 * f.u) ∧
        o.combined.Close y (2 * P) (15 * ε + 27 * f.u)) ∧
      ∃ y : DQuat ℝ, y.to_homogeneous = homogeneous_from_rotation R x.re3 ∧ o.combined2.Close y (2 * P) (85 * ε + 220 * f.u) := by
  have hp8 : 8 ≤ f.p := by omega
  have hu0 := f.u_pos
  have hη0 := f.eta_pos
  have hη := Fmt.eta_small hp8
  have ε0 := acc_nonneg h
  have P0 : 0 ≤ P := by linarith
  have hov2 : 16 * (2 + 2 * P) ^ 2 ≤ (2 : ℝ) ^ f.emax := by
    refine le_trans ?_ hov
    have := pow_le_pow_left₀ (by linarith) (show 2 + 2 * P ≤ 2 + 4 * P by linarith) 2
    linarith
  have hov4 : 16 * (2 + 2 * (1 + 1) * P) ^ 2 ≤ (2 : ℝ) ^ f.emax := by
    rw [show (2 : ℝ) + 2 * (1 + 1) * P = 2 + 4 * P by ring]; exact hov
  obtain ⟨hq, hM⟩ := euler_near hp hw h (by linarith) yay pitch roll hy hpi hr
  have hrot : IsRot (euler_to_rotation yay.toReal pitch.toReal roll.toReal none) := (C73_euler_to_rotation_partial _ _ _).2.2 none
  have hE : ∀ i j, (euler_to_rotation yay pitch roll none i j).IsFin ∧ |(euler_to_rotation yay pitch roll none i j).toReal
      - euler_to_rotation yay.toReal pitch.toReal roll.toReal none i j| ≤ 7 * ε + 13 * f.u := by
    intro i j
    have hx := hw.high
    obtain ⟨a, b⟩ := C109_euler h (by linarith) (by omega) yay pitch roll hy hpi hr none i j
    refine ⟨a, b.trans ?_⟩
    have k1 : (1 + f.u) ^ 6 ≤ 1 + 601 / 100 * f.u := by
      have u2 : f.u * f.u ≤ 1 / 52000 * f.u := mul_le_mul_of_nonneg_right (by linarith) hu0.le
      have c2 : (1 + f.u) ^ 2 ≤ 1 + 2001 / 1000 * f.u := by nlinarith
      calc (1 + f.u) ^ 6 = ((1 + f.u) ^ 2) ^ 3 := by ring
        _ ≤ (1 + 2001 / 1000 * f.u) ^ 3 := pow_le_pow_left₀ (by positivity) c2 3
        _ ≤ _ := by nlinarith [mul_nonneg (mul_nonneg hu0.le hu0.le) hu0.le]
    have k2 : (1 + ε) ^ 3 ≤ 1 + 301 / 100 * ε := by
      have u2 : ε * ε ≤ 1 / 52000 * ε := mul_le_mul_of_nonneg_right (by linarith) ε0
      nlinarith [mul_nonneg (mul_nonneg ε0 ε0) ε0]
    have k3 : (1 + f.u) ^ 6 * (1 + ε) ^ 3 ≤ (1 + 601 / 100 * f.u) * (1 + 301 / 100 * ε) := mul_le_mul k1 k2 (by positivity) (by positivity)
    have k4 : (601 / 100 * f.u) * (301 / 100 * ε) ≤ 1 / 100 * (301 / 100 * ε) := mul_le_mul_of_nonneg_right (by linarith) (by positivity)
    have k5 : (1 + f.u) ^ 6 * (f.eta * 15) ≤ 2 * (f.eta * 15) := mul_le_mul_of_nonneg_right (by linarith) (by linarith)
    linarith
  rw [← hR] at hM hrot hE
  obtain ⟨hu, hqR, -⟩ := C53_from_euler_angles yay.toReal pitch.toReal roll.toReal
  rw [← hR] at hqR
  unfold Examples.dual_quaternions
  generalize (euler_to_rotation yay pitch roll none) = M at hE ⊢
  generalize (Quat.from_euler_angles yay pitch roll) = q at hM hq ⊢
  generalize (Quat.from_euler_angles yay.toReal pitch.toReal roll.toReal) = q' at hq hu hqR
  have hH : homogeneous_from_quaternion q t = homogeneous_from_rotation q.to_rotation t := rfl
  obtain ⟨d, d1, d2⟩ := C136_round_trip (P := P) (δ := 35 * ε + 52 * f.u) hp (homogeneous_from_quaternion q t) (homogeneous_from_rotation R t.re3) hP (by linarith)
    (isRigid_from hrot _) ht2
    (fun i j => by
      rw [hH, hfr_entry, hfr_entry]
      exact hM i j)
    (fun i => by
      rw [hH, hfr_trans, hfr_trans]
      refine ⟨ht i, ?_⟩
      change |(t i).toReal - (t i).toReal| ≤ _
      rw [sub_self, abs_zero]
      positivity)
    hov2
  rw [show 190 * (35 * ε + 52 * f.u) + 962 * f.u = 6650 * ε + 10842 * f.u by ring] at d2
  obtain ⟨w, w1, w2, w3⟩ := Quat.normalize_near hp8 (e := 7 * (ε + f.u)) (by linarith) hu hq
  obtain ⟨y, ⟨y1, y2⟩, y3, y4⟩ := DQuat.build_close (P := P) (e := 3 * (7 * (ε + f.u)) + 12 * f.u) (d := 0) hp8 (t := x) (t' := x.re3) hP (by linarith)
    (by norm_num) hu w3 (vec_norm (by linarith) hx2) (fun i => ⟨hx i, by
      change |(x i).toReal - (x i).toReal| ≤ _
      rw [sub_self, abs_zero, mul_zero]⟩) hov2 true
  have cT := close_translation hp8 x hx hP hx2
  have cT' : (DQuat.new_from_translation x).Close (DQuat.new_from_translation x.re3) (1 * P) ((1 + f.u) - 1) := by
    rw [one_mul, add_sub_cancel_left]; exact cT
  have bnd : ∀ {a : ℝ}, 0 ≤ a → a ≤ 1 / 20 → (1 + f.u) * ((1 + a) * (1 + 11 * f.u)) ≤ 1 + a + 63 / 5 * f.u + 1 / 250 * a := by
    intro a a0 a1
    have u2 : f.u * f.u ≤ 1 / 52000 * f.u := mul_le_mul_of_nonneg_right (by linarith) hu0.le
    have u3 : f.u * f.u * (11 * (1 + a)) ≤ 1 / 52000 * f.u * (11 * (1 + a)) := mul_le_mul_of_nonneg_right u2 (by linarith)
    have u4 : f.u * a ≤ 1 / 20 * f.u := by nlinarith
    nlinarith
  have m1 := DQuat.Close.mul hp8 (k := 1) (P := P) (G := 1 + f.u) zero_le_one hP cT' (close_rotation (P := P) P0 hu hq)
    (by have := bnd (a := 2 * (7 * (ε + f.u))) (by positivity) (by linarith); linarith) hov4
  have m1' := m1.congr (exact_product x.re3 q' y1 y2)
  obtain ⟨r, r1, r2, r3⟩ := C126_from_rotation hp8 M R (7 * ε + 13 * f.u) (by linarith) hrot hE
  obtain ⟨z, -, z1, z2, z3⟩ := DQuat.exact_motion r x.re3 r1
  have m2 := DQuat.Close.mul hp8 (k := 1) (P := P) (G := 1 + f.u) zero_le_one hP cT' (close_rotation (P := P) P0 r1 r3)
    (by have := bnd (a := 2 * (6 * (7 * ε + 13 * f.u) + 25 * f.u)) (by positivity) (by linarith); linarith) hov4
  have m2' := m2.congr (exact_product x.re3 r z1 z2)
  refine ⟨⟨homogeneous_from_quaternion q t, d.to_homogeneous, ⟨w, ((Quat.new_imag x).smul (1 / (1 + 1))).mul w, true⟩,
    (DQuat.new_from_translation x).mul (DQuat.new_from_rotation q), (DQuat.new_from_translation x).mul (DQuat.new_from_rotation_matrix M)⟩,
    ?_, fun i j => ⟨?_, ?_, ?_, ?_, (d2 i j).2.2⟩, ⟨y, by rw [y3, hqR], ?_, ?_⟩, z, by rw [z3, r2], ?_⟩
  · unfold DQuat.new_from_rot_trans
    dsimp only
    rw [d1, w1]
    rfl
  · rw [hH, hfr_entry]
    exact hM i j
  · rw [hH, hfr_trans]
  · have := (d2 i j).1
    rw [hfr_entry] at this
    exact this
  · have := (d2 i j).2.1
    rw [hfr_trans] at this
    exact this
  · exact y4.mono le_rfl (by linarith)
  · refine m1'.mono (by linarith) ?_
    have := bnd (a := 2 * (7 * (ε + f.u))) (by positivity) (by linarith)
    linarith
  · refine m2'.mono (by linarith) ?_
    have := bnd (a := 2 * (6 * (7 * ε + 13 * f.u) + 25 * f.u)) (by positivity) (by linarith)
    linarith

/-! ### Instances -/

private theorem u32 : Fmt.f32.u = 1 / 2 ^ 24 := by
  change (2 : ℝ) ^ (-24 : ℤ) = _
  norm_num

/-- The hypotheses hold: turning by `π/4` (rounded) about z and moving by 4 along it, in single precision with correctly rounded
functions. -/
example [RealParams] {four : Flt Fmt.f32} (h4 : four.IsFin) (h4' : four.toReal = 4) :
    letI := correctLibm Fmt.f32
    ∃ l' m' θ' D', Examples.screw_parameters V3.z_axis (ofReal Fmt.f32 false (Real.pi / 4)) ⟨![0, 0, four]⟩ = .ok (l', m', θ', D') ∧
      |(l' 2).toReal - 1| ≤ 1 / 800 ∧ |θ'.toReal - (ofReal Fmt.f32 false (Real.pi / 4)).toReal| ≤ 1 / 2500 ∧ |D'.toReal - 4| ≤ 1 / 40 := by
  let := correctLibm Fmt.f32
  have hπ := Real.pi_gt_three
  have hπ' := Real.pi_lt_d2
  have hu0 := Fmt.f32.u_pos
  have n : Near (ofReal Fmt.f32 false (Real.pi / 4)) (Real.pi / 4) _ :=
    Near.of_real (B := 1) (by decide) (by rw [abs_of_nonneg] <;> linarith) (by norm_num)
  have n' := n.err
  have n0 := n.fin
  generalize ofReal Fmt.f32 false (Real.pi / 4) = a at n' n0 ⊢
  rw [u32] at n'
  obtain ⟨n1, n2⟩ := _root_.abs_le.mp n'
  norm_num at n1 n2
  have a1 : 7 / 10 ≤ a.toReal := by linarith
  have a2 : a.toReal ≤ 8 / 10 := by linarith
  obtain ⟨σ, hσ⟩ : ∃ σ, σ = Real.sin (a.toReal / 2) := ⟨_, rfl⟩
  have σ1 : 2 / 9 ≤ σ := by
    have := Real.mul_le_sin (x := a.toReal / 2) (by linarith) (by linarith)
    rw [← hσ] at this
    have : 2 / 9 ≤ 2 / Real.pi * (a.toReal / 2) := by
      rw [div_mul_eq_mul_div, le_div_iff₀ (by linarith)]
      linarith
    linarith
  obtain ⟨d, hd⟩ : ∃ d, d = 38 / 5 * (4 * Fmt.f32.u) + (18 * a.toReal + 100) * Fmt.f32.u := ⟨_, rfl⟩
  have d0 : 0 ≤ d := by rw [hd]; positivity
  have d1 : d ≤ 145 / 2 ^ 24 := by rw [hd, u32]; linarith
  have dσ : d / σ ≤ 660 / 2 ^ 24 := by
    rw [div_le_iff₀ (by linarith)]
    linarith
  have dσ0 : 0 ≤ d / σ := by positivity
  obtain ⟨l', m', θ', D', r0, r1, -, r3, r4⟩ := C161_screw_z (P := 2) (d := d) (σ := σ) (by decide) Fmt.f32_wide (correctLibm_all (f := Fmt.f32) (by decide)).1
    (correctLibm_atan2 (by decide)) (correctLibm_tan Fmt.f32_wide) a four n0 h4 (by linarith) (by linarith)
    (by rw [h4']; norm_num) (by norm_num) hd hσ (by linarith) (by
      have h1 : 2 / σ ≤ 9 := by
        rw [div_le_iff₀ (by linarith)]
        linarith
      have h2 : 0 ≤ 2 / σ := by positivity
      have h4 : (2 + 2 * (2 / σ)) ^ 2 ≤ 26 ^ 2 := pow_le_pow_left₀ (by linarith) (by linarith) 2
      change _ ≤ (2 : ℝ) ^ (127 : ℤ)
      norm_num at h4 ⊢
      linarith)
  refine ⟨l', m', θ', D', r0, ((r1 2).2).trans (by linarith), r3.2.trans (by linarith), ?_⟩
  rw [h4'] at r4
  exact r4.2.trans (by linarith)

/-- The hypotheses hold: any three angles in single precision, the translation (1, 1, 1), the point (0, 1, 0). -/
example [RealParams] (a b c : Flt Fmt.f32) (ha : a.IsFin) (hb : b.IsFin) (hc : c.IsFin) :
    letI := correctLibm Fmt.f32
    ∃ e v, Examples.transform_point a b c ⟨fun _ => 1⟩ V3.y_axis = .ok (e, v) ∧
      ∀ i : Fin 3, |(e i.castSucc).toReal - (v i).toReal| ≤ 1 / 200 := by
  let := correctLibm Fmt.f32
  have hu0 := Fmt.f32.u_pos
  have o : (1 : Flt Fmt.f32).toReal = 1 := toReal_one
  have z : (0 : Flt Fmt.f32).toReal = 0 := toReal_zero
  obtain ⟨e, v, h1, h2, -⟩ := C161_points (f := Fmt.f32) (P := 1) (by decide) Fmt.f32_wide (correctLibm_all (f := Fmt.f32) (by decide)).1
    (by rw [u32]; norm_num) a b c ha hb hc ⟨fun _ => 1⟩ V3.y_axis (by norm_num) (fun _ => isFin_one)
    (by change (1 : Flt Fmt.f32).toReal ^ 2 + (1 : Flt Fmt.f32).toReal ^ 2 + (1 : Flt Fmt.f32).toReal ^ 2 ≤ _; rw [o]; norm_num)
    (by intro i; fin_cases i; exacts [isFin_zero, isFin_one, isFin_zero])
    (by change (0 : Flt Fmt.f32).toReal ^ 2 + (1 : Flt Fmt.f32).toReal ^ 2 + (0 : Flt Fmt.f32).toReal ^ 2 ≤ _; rw [o, z]; norm_num)
    (by change _ ≤ (2 : ℝ) ^ (127 : ℤ); norm_num)
  refine ⟨e, v, h1, fun i => ?_⟩
  obtain ⟨⟨-, b1⟩, -, b2⟩ := h2 i
  have := abs_sub_le (e i.castSucc).toReal (M33.mulVec (euler_to_rotation a.toReal b.toReal c.toReal none) (V3.y_axis : Vec 3 (Flt Fmt.f32)).re3 i) (v i).toReal
  rw [abs_sub_comm] at b2
  rw [u32] at b1 b2
  norm_num at b1 b2
  linarith

/-- The hypotheses hold: the program with any three angles in single precision, translations (1, 1, 1) and the x axis. -/
example [RealParams] (a b c : Flt Fmt.f32) (ha : a.IsFin) (hb : b.IsFin) (hc : c.IsFin) :
    letI := correctLibm Fmt.f32
    ∃ o, Examples.dual_quaternions a b c ⟨fun _ => 1⟩ V3.x_axis = .ok o ∧
      ∀ i j : Fin 3, |(o.double i.castSucc j.castSucc).toReal - (o.t i.castSucc j.castSucc).toReal| ≤ 1 / 400 := by
  let := correctLibm Fmt.f32
  have hu0 := Fmt.f32.u_pos
  have o : (1 : Flt Fmt.f32).toReal = 1 := toReal_one
  have z : (0 : Flt Fmt.f32).toReal = 0 := toReal_zero
  obtain ⟨r, h1, h2, -⟩ := C161_dual_quaternions (f := Fmt.f32) (P := 1) (by decide) Fmt.f32_wide (correctLibm_all (f := Fmt.f32) (by decide)).1
    (by rw [u32]; norm_num) a b c ha hb hc ⟨fun _ => 1⟩ V3.x_axis (by norm_num) (fun _ => isFin_one)
    (by change (1 : Flt Fmt.f32).toReal ^ 2 + (1 : Flt Fmt.f32).toReal ^ 2 + (1 : Flt Fmt.f32).toReal ^ 2 ≤ _; rw [o]; norm_num)
    (by intro i; fin_cases i; exacts [isFin_one, isFin_zero, isFin_zero])
    (by change (1 : Flt Fmt.f32).toReal ^ 2 + (0 : Flt Fmt.f32).toReal ^ 2 + (0 : Flt Fmt.f32).toReal ^ 2 ≤ _; rw [o, z]; norm_num)
    (by change _ ≤ (2 : ℝ) ^ (127 : ℤ); norm_num) rfl
  refine ⟨r, h1, fun i j => ?_⟩
  obtain ⟨⟨-, b1⟩, -, ⟨-, b2⟩, -⟩ := h2 i j
  have := abs_sub_le (r.double i.castSucc j.castSucc).toReal (euler_to_rotation a.toReal b.toReal c.toReal none i j) (r.t i.castSucc j.castSucc).toReal
  rw [abs_sub_comm] at b1
  rw [u32] at b1 b2
  norm_num at b1 b2
  linarith

/-- The dual number norm of a float translation, in every format: one up to `14 u`. -/
example (hw : f.Wide) (t : Vec 3 (Flt f)) (ht : ∀ i, (t i).IsFin) (h : (t 0).toReal ^ 2 + (t 1).toReal ^ 2 + (t 2).toReal ^ 2 ≤ (2 * 1) ^ 2)
    (hov : 16 * (2 + 4 * 1) ^ 2 ≤ (2 : ℝ) ^ f.emax) : ‖(DQuat.new_from_translation t).norm.real.reH - 1‖ ≤ 14 * f.u := by
  have hu0 := f.u_pos
  have hu := Fmt.u_le_of_p hw.p
  have u2 : f.u * f.u ≤ 1 / 256 * f.u := mul_le_mul_of_nonneg_right hu hu0.le
  have u3 : f.u * f.u * f.u ≤ 1 / 256 * f.u * (1 / 256) := mul_le_mul u2 hu hu0.le (by positivity)
  refine (C161_norm hw.p (close_translation hw.p t ht (P := 1) (by norm_num) h) (by norm_num) (by nlinarith) hov).2.1.trans ?_
  nlinarith

end StaticMath

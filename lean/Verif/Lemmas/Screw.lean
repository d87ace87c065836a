import Verif.Lemmas.DualQuat
import Verif.Lemmas.Real3
import Verif.Lemmas.Quat

/-! # Screw motions: the components of `new_from_screw_parameters` and `pow` -/

namespace StaticMath

open Quaternion

/-- Equality of dual quaternions, component by component. -/
theorem DQuat.toD_iff8 {R : Type} [CommRing R] {x y : DQuat R} :
    x.toD = y.toD ↔ (x.q_real.q0 = y.q_real.q0 ∧ x.q_real.q 0 = y.q_real.q 0 ∧
      x.q_real.q 1 = y.q_real.q 1 ∧ x.q_real.q 2 = y.q_real.q 2) ∧
      (x.q_dual.q0 = y.q_dual.q0 ∧ x.q_dual.q 0 = y.q_dual.q 0 ∧
      x.q_dual.q 1 = y.q_dual.q 1 ∧ x.q_dual.q 2 = y.q_dual.q 2) := by
  rw [DQuat.toD_inj, H_ext_iff, H_ext_iff]
  rfl

/-- A unit dual quaternion, component by component. -/
theorem DQuat.isMotion_iff {R : Type} [CommRing R] {x : DQuat R} :
    x.IsMotion ↔ (x.q_real.q0 ^ 2 + x.q_real.q 0 ^ 2 + x.q_real.q 1 ^ 2 + x.q_real.q 2 ^ 2 = 1) ∧
      (x.q_real.q0 * x.q_dual.q0 + x.q_real.q 0 * x.q_dual.q 0 + x.q_real.q 1 * x.q_dual.q 1
        + x.q_real.q 2 * x.q_dual.q 2 = 0) := by
  have e : (x.q_real.toH * star x.q_dual.toH).re = x.q_real.q0 * x.q_dual.q0
      + x.q_real.q 0 * x.q_dual.q 0 + x.q_real.q 1 * x.q_dual.q 1 + x.q_real.q 2 * x.q_dual.q 2 := by
    simp only [Quaternion.re_mul, Quaternion.re_star, Quaternion.imI_star, Quaternion.imJ_star,
      Quaternion.imK_star, Quat.toH_re, Quat.toH_imI, Quat.toH_imJ, Quat.toH_imK]
    ring
  rw [← e, ← Quat.unit_iff]
  exact ⟨fun h => ⟨h.norm, h.orth⟩, fun h => ⟨h.1, h.2⟩⟩

theorem DQuat.IsMotion.congr {R : Type} [CommRing R] {x y : DQuat R} (h : x.toD = y.toD) (hx : x.IsMotion) :
    y.IsMotion := by
  rw [DQuat.toD_inj] at h
  exact ⟨by rw [← h.1]; exact hx.norm, by rw [← h.1, ← h.2]; exact hx.orth⟩

section
variable [P : RealParams]

theorem screw_comp (l m : Vec 3 ℝ) (theta d : ℝ) :
    (DQuat.new_from_screw_parameters l m theta d).q_real.q0 = Real.cos (theta / 2) ∧
    (∀ i, (DQuat.new_from_screw_parameters l m theta d).q_real.q i = l i * Real.sin (theta / 2)) ∧
    (DQuat.new_from_screw_parameters l m theta d).q_dual.q0 = Real.sin (theta / 2) * (-d / 2) ∧
    (∀ i, (DQuat.new_from_screw_parameters l m theta d).q_dual.q i
      = m i * Real.sin (theta / 2) + l i * (d / 2) * Real.cos (theta / 2)) := by
  have e : ((1 : ℝ) + 1) = 2 := by norm_num
  refine ⟨?_, fun i => ?_, ?_, fun i => ?_⟩
  · change Real.cos (theta / (1 + 1)) = _
    rw [e]
  · change V3.smul l (Real.sin (theta / (1 + 1))) i = _
    rw [e, V3.smul_apply]
  · change Real.sin (theta / (1 + 1)) * (-d / (1 + 1)) = _
    rw [e]
  · change V3.add (V3.smul m (Real.sin (theta / (1 + 1))))
      (V3.smul (V3.smul l (d / (1 + 1))) (Real.cos (theta / (1 + 1)))) i = _
    rw [e, V3.add_apply, V3.smul_apply, V3.smul_apply, V3.smul_apply]

theorem screw_isMotion {l m : Vec 3 ℝ} (h : IsLine l m) (theta d : ℝ) :
    (DQuat.new_from_screw_parameters l m theta d).IsMotion := by
  obtain ⟨h1, h2, h3, h4⟩ := screw_comp l m theta d
  obtain ⟨hl, hm⟩ := h
  have hsc := Real.sin_sq_add_cos_sq (theta / 2)
  rw [DQuat.isMotion_iff, h1, h3, h2, h2, h2, h4, h4, h4]
  generalize Real.sin (theta / 2) = s at *
  generalize Real.cos (theta / 2) = c at *
  constructor
  · linear_combination s ^ 2 * hl + hsc
  · linear_combination s ^ 2 * hm + s * c * d / 2 * hl

theorem screw_mul {l m : Vec 3 ℝ} (h : IsLine l m) (a b d e : ℝ) :
    ((DQuat.new_from_screw_parameters l m a d).mul (DQuat.new_from_screw_parameters l m b e)).toD
      = (DQuat.new_from_screw_parameters l m (a + b) (d + e)).toD := by
  obtain ⟨h1, h2, h3, h4⟩ := screw_comp l m a d
  obtain ⟨k1, k2, k3, k4⟩ := screw_comp l m b e
  obtain ⟨g1, g2, g3, g4⟩ := screw_comp l m (a + b) (d + e)
  obtain ⟨hl, hm⟩ := h
  rw [DQuat.toD_iff8]
  generalize DQuat.new_from_screw_parameters l m a d = x at *
  generalize DQuat.new_from_screw_parameters l m b e = y at *
  generalize DQuat.new_from_screw_parameters l m (a + b) (d + e) = z at *
  rw [add_div, Real.cos_add] at g1
  rw [add_div, Real.sin_add] at g2
  rw [add_div, Real.sin_add] at g3
  rw [add_div, Real.sin_add, Real.cos_add] at g4
  have r0 : (x.mul y).q_real = x.q_real.mul y.q_real := rfl
  have r1 : (x.mul y).q_dual = (x.q_real.mul y.q_dual).add (x.q_dual.mul y.q_real) := rfl
  have a0 (p q : Quat ℝ) : (p.add q).q0 = p.q0 + q.q0 := rfl
  have a1 (p q : Quat ℝ) (i : Fin 3) : (p.add q).q i = p.q i + q.q i := V3.add_apply _ _ _
  simp only [r0, r1, a0, a1, Quat.mul_q0, Quat.mul_qi, Quat.mul_qj, Quat.mul_qk, h1, h2, h3, h4, k1,
    k2, k3, k4, g1, g2, g3, g4]
  generalize Real.sin (a / 2) = sa
  generalize Real.cos (a / 2) = ca
  generalize Real.sin (b / 2) = sb
  generalize Real.cos (b / 2) = cb
  refine ⟨⟨?_, ?_, ?_, ?_⟩, ?_, ?_, ?_, ?_⟩
  · linear_combination (-sa * sb) * hl
  · ring
  · ring
  · ring
  · linear_combination (-2 * sa * sb) * hm + (-sa * cb * e / 2 - d / 2 * ca * sb) * hl
  · ring
  · ring
  · ring

theorem screw_zero (l m : Vec 3 ℝ) : (DQuat.new_from_screw_parameters l m 0 0).toD = 1 := by
  obtain ⟨h1, h2, h3, h4⟩ := screw_comp l m 0 0
  rw [← DQuat.toD_one, DQuat.toD_iff8, h1, h3, h2, h2, h2, h4, h4, h4, zero_div, Real.sin_zero,
    Real.cos_zero]
  refine ⟨⟨rfl, ?_, ?_, ?_⟩, ?_, ?_, ?_, ?_⟩
  all_goals simp only [mul_zero, zero_mul, add_zero]; rfl

/-- The translation of a screw motion. -/
theorem screw_translation {l m : Vec 3 ℝ} (h : IsLine l m) (theta d : ℝ) :
    (∀ i, (DQuat.new_from_screw_parameters l m theta d).get_translation i
      = d * l i + 2 * Real.sin (theta / 2) * Real.cos (theta / 2) * m i
        - 2 * Real.sin (theta / 2) ^ 2 * V3.cross m l i) := by
  obtain ⟨h1, h2, h3, h4⟩ := screw_comp l m theta d
  obtain ⟨hl, hm⟩ := h
  have hsc := Real.sin_sq_add_cos_sq (theta / 2)
  generalize DQuat.new_from_screw_parameters l m theta d = x at *
  have ht : x.get_translation = ((x.q_dual.smul (1 + 1)).mul x.q_real.conj).q := rfl
  have s0 (p : Quat ℝ) (r : ℝ) : (p.smul r).q0 = p.q0 * r := rfl
  have s1 (p : Quat ℝ) (r : ℝ) (i : Fin 3) : (p.smul r).q i = p.q i * r := V3.smul_apply _ _ _
  have c0 : x.q_real.conj.q0 = x.q_real.q0 := rfl
  have c1 (i : Fin 3) : x.q_real.conj.q i = -x.q_real.q i := V3.neg_apply _ _
  have hi : ∀ i : Fin 3, i = 0 ∨ i = 1 ∨ i = 2 := by decide
  intro i
  rw [ht]
  rcases hi i with rfl | rfl | rfl
  all_goals
    simp only [Quat.mul_qi, Quat.mul_qj, Quat.mul_qk, s0, s1, c0, c1, h1, h2, h3, h4, V3.cross_0,
      V3.cross_1, V3.cross_2]
    generalize Real.sin (theta / 2) = s at *
    generalize Real.cos (theta / 2) = c at *
  · linear_combination d * l 0 * hsc
  · linear_combination d * l 1 * hsc
  · linear_combination d * l 2 * hsc

end

end StaticMath

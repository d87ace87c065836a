import Verif.Lemmas.Screw
import Verif.Props.DualAlgebra
import Verif.Props.Compare
import Mathlib.Analysis.SpecialFunctions.Trigonometric.Bounds

/-!
# C67-C71: screw motions, powers, interpolation, logarithm of dual quaternions
-/

namespace StaticMath

open Quaternion

section
variable [P : RealParams]

/-- Parameters the code extracts from a dual quaternion in `pow`. -/
private noncomputable def powL (x : DQuat ℝ) : Vec 3 ℝ :=
  V3.sdiv x.q_real.q (Real.sin (Real.arccos x.q_real.q0))
private noncomputable def powD (x : DQuat ℝ) : ℝ :=
  x.q_dual.q0 * -2 / Real.sin (Real.arccos x.q_real.q0)
private noncomputable def powM (x : DQuat ℝ) : Vec 3 ℝ :=
  V3.sdiv (V3.sub x.q_dual.q (V3.smul (V3.smul (powL x) (powD x / 2))
    (Real.cos (Real.arccos x.q_real.q0)))) (Real.sin (Real.arccos x.q_real.q0))

private theorem pow_screw (x : DQuat ℝ) (h : P.eps ≤ 2 * Real.arccos x.q_real.q0) (e : ℝ) :
    (x.pow e).toD = (DQuat.new_from_screw_parameters (powL x) (powM x)
      (e * (2 * Real.arccos x.q_real.q0)) (e * powD x)).toD := by
  obtain ⟨h1, h2, h3, h4⟩ := screw_comp (powL x) (powM x) (e * (2 * Real.arccos x.q_real.q0)) (e * powD x)
  have e2 : ((1 : ℝ) + 1) = 2 := by norm_num
  have e3 : 2 * Real.arccos x.q_real.q0 / 2 = Real.arccos x.q_real.q0 := by ring
  have hz : nearly_zero (2 * Real.arccos x.q_real.q0) = false := by
    rw [nearly_zero_eq, abs_of_nonneg (by have := Real.arccos_nonneg x.q_real.q0; linarith)]
    simpa using h
  have hp : x.pow e = DQuat.new
      (Quat.new (Real.cos (e * (2 * Real.arccos x.q_real.q0) / 2))
        (V3.smul (powL x) (Real.sin (e * (2 * Real.arccos x.q_real.q0) / 2))))
      (Quat.new (Real.sin (e * (2 * Real.arccos x.q_real.q0) / 2) * -e * powD x / 2)
        (V3.add (V3.sdiv (V3.smul (V3.smul (V3.smul (powL x)
          (Real.cos (e * (2 * Real.arccos x.q_real.q0) / 2))) e) (powD x)) 2)
          (V3.smul (powM x) (Real.sin (e * (2 * Real.arccos x.q_real.q0) / 2))))) := by
    unfold DQuat.pow powM powL powD
    simp only [e2, rfloat_acos, rfloat_sin, rfloat_cos, DQuat.real, DQuat.dual, Quat.real, Quat.imag,
      hz, Bool.false_eq_true, if_false, e3]
  rw [DQuat.toD_iff8, h1, h3, h2, h2, h2, h4, h4, h4, hp]
  generalize powL x = l
  generalize powM x = m
  generalize powD x = d
  generalize Real.sin (e * (2 * Real.arccos x.q_real.q0) / 2) = s
  generalize Real.cos (e * (2 * Real.arccos x.q_real.q0) / 2) = c
  simp only [DQuat.new, Quat.new, V3.add_apply, V3.smul_apply, V3.sdiv_apply, true_and]
  refine ⟨?_, ?_, ?_, ?_⟩ <;> ring

private theorem arccos_facts (x : DQuat ℝ) (hx : x.IsMotion) (h1 : -1 < x.q_real.q0)
    (h2 : P.eps ≤ 2 * Real.arccos x.q_real.q0) :
    Real.cos (Real.arccos x.q_real.q0) = x.q_real.q0 ∧ 0 < Real.sin (Real.arccos x.q_real.q0) ∧
    Real.sin (Real.arccos x.q_real.q0) ^ 2
      = x.q_real.q 0 ^ 2 + x.q_real.q 1 ^ 2 + x.q_real.q 2 ^ 2 ∧
    0 < Real.arccos x.q_real.q0 ∧ Real.arccos x.q_real.q0 < Real.pi := by
  have he := P.eps_pos
  have hu := (DQuat.isMotion_iff.1 hx).1
  have hle : x.q_real.q0 ≤ 1 := by nlinarith [sq_nonneg (x.q_real.q 0), sq_nonneg (x.q_real.q 1), sq_nonneg (x.q_real.q 2)]
  have hc := Real.cos_arccos h1.le hle
  have hpos : 0 < Real.arccos x.q_real.q0 := by linarith
  have hlt : Real.arccos x.q_real.q0 < Real.pi := by
    rcases (Real.arccos_le_pi x.q_real.q0).lt_or_eq with h | h
    · exact h
    · rw [h, Real.cos_pi] at hc
      linarith
  have hsc := Real.sin_sq_add_cos_sq (Real.arccos x.q_real.q0)
  refine ⟨hc, Real.sin_pos_of_pos_of_lt_pi hpos hlt, ?_, hpos, hlt⟩
  rw [hc] at hsc
  linarith

private theorem line_of (x : DQuat ℝ) (hx : x.IsMotion) (h1 : -1 < x.q_real.q0)
    (h2 : P.eps ≤ 2 * Real.arccos x.q_real.q0) :
    IsLine (powL x) (powM x) ∧ (DQuat.new_from_screw_parameters (powL x) (powM x)
      (2 * Real.arccos x.q_real.q0) (powD x)).toD = x.toD := by
  obtain ⟨hc, hs, hs2, -, -⟩ := arccos_facts x hx h1 h2
  obtain ⟨s1, s2, s3, s4⟩ := screw_comp (powL x) (powM x) (2 * Real.arccos x.q_real.q0) (powD x)
  have e3 : 2 * Real.arccos x.q_real.q0 / 2 = Real.arccos x.q_real.q0 := by ring
  have ho := (DQuat.isMotion_iff.1 hx).2
  have hl (i : Fin 3) : powL x i = x.q_real.q i / Real.sin (Real.arccos x.q_real.q0) := V3.sdiv_apply _ _ _
  have hd : powD x = x.q_dual.q0 * -2 / Real.sin (Real.arccos x.q_real.q0) := rfl
  have hm (i : Fin 3) : powM x i = (x.q_dual.q i - powL x i * (powD x / 2)
      * Real.cos (Real.arccos x.q_real.q0)) / Real.sin (Real.arccos x.q_real.q0) := by
    unfold powM
    rw [V3.sdiv_apply, V3.sub_apply, V3.smul_apply, V3.smul_apply]
  rw [e3] at s1 s2 s3 s4
  rw [DQuat.toD_iff8, s1, s3, s2, s2, s2, s4, s4, s4]
  rw [hc] at hm ⊢
  generalize Real.sin (Real.arccos x.q_real.q0) = s at *
  have hs0 : s ≠ 0 := hs.ne'
  refine ⟨⟨?_, ?_⟩, ⟨rfl, ?_, ?_, ?_⟩, ?_, ?_, ?_, ?_⟩
  · rw [hl, hl, hl]
    field_simp
    linarith
  · rw [hm, hm, hm, hd, hl, hl, hl]
    field_simp
    linear_combination s ^ 2 * ho - x.q_real.q0 * x.q_dual.q0 * hs2
  · rw [hl, div_mul_cancel₀ _ hs0]
  · rw [hl, div_mul_cancel₀ _ hs0]
  · rw [hl, div_mul_cancel₀ _ hs0]
  · rw [hd]; field_simp
  · rw [hm, div_mul_cancel₀ _ hs0]; ring
  · rw [hm, div_mul_cancel₀ _ hs0]; ring
  · rw [hm, div_mul_cancel₀ _ hs0]; ring

/-! ## C67 powers -/

/-- What a screw motion is: rotation by `theta` about the direction `l`, and every point `p + s l` of
the line with direction `l` and moment `m` (`p = l × m`) moves by `d` along the line. -/
theorem C67_screw (l m : Vec 3 ℝ) (h : IsLine l m) (theta d s : ℝ) :
    (DQuat.new_from_screw_parameters l m theta d).IsMotion ∧
    (DQuat.new_from_screw_parameters l m theta d).q_real.to_rotation
      = rotation_from_axis_angle l theta ∧
    M44.mulVec (DQuat.new_from_screw_parameters l m theta d).to_homogeneous
        (V3.add (V3.cross l m) (V3.smul l s)).point
      = (V3.add (V3.cross l m) (V3.smul l (s + d))).point := by
  have hmo := screw_isMotion h theta d
  have htr := screw_translation h theta d
  obtain ⟨h1, h2, -, -⟩ := screw_comp l m theta d
  obtain ⟨hl, hm⟩ := h
  have hsc := Real.sin_sq_add_cos_sq (theta / 2)
  have e : theta = 2 * (theta / 2) := by ring
  have hsin : Real.sin theta = 2 * Real.sin (theta / 2) * Real.cos (theta / 2) := by
    conv_lhs => rw [e, Real.sin_two_mul]
  have hcos : Real.cos theta = 1 - 2 * Real.sin (theta / 2) ^ 2 := by
    conv_lhs => rw [e, Real.cos_two_mul]
    linarith
  have hrot : (DQuat.new_from_screw_parameters l m theta d).q_real.to_rotation
      = rotation_from_axis_angle l theta := by
    refine Mat.ext3 ?_ ?_ ?_ ?_ ?_ ?_ ?_ ?_ ?_ <;>
      simp only [Quat.rot00, Quat.rot01, Quat.rot02, Quat.rot10, Quat.rot11, Quat.rot12, Quat.rot20,
        Quat.rot21, Quat.rot22, rotation_from_axis_angle, entries, rfloat_sin, rfloat_cos, hsin, hcos,
        h1, h2] <;>
      generalize Real.sin (theta / 2) = sn at * <;> generalize Real.cos (theta / 2) = c at *
    · linear_combination hsc + sn ^ 2 * hl
    · ring
    · ring
    · ring
    · linear_combination hsc + sn ^ 2 * hl
    · ring
    · ring
    · ring
    · linear_combination hsc + sn ^ 2 * hl
  refine ⟨hmo, hrot, ?_⟩
  rw [(C62_product_partial _ _ hmo hmo _).2.2.2, DQuat.transform_point_eq, hrot]
  refine congrArg Vec.point ?_
  refine Vec.ext3 ?_ ?_ ?_ <;>
    simp only [rotation_from_axis_angle, entries, htr, rfloat_sin, rfloat_cos, hsin, hcos] <;>
    generalize Real.sin (theta / 2) = sn at * <;> generalize Real.cos (theta / 2) = c at *
  · linear_combination 2 * sn * c * l 0 * hm - 2 * sn * c * m 0 * hl
      - 2 * sn ^ 2 * (l 1 * m 2 - l 2 * m 1) * hl
  · linear_combination 2 * sn * c * l 1 * hm - 2 * sn * c * m 1 * hl
      - 2 * sn ^ 2 * (l 2 * m 0 - l 0 * m 2) * hl
  · linear_combination 2 * sn * c * l 2 * hm - 2 * sn * c * m 2 * hl
      - 2 * sn ^ 2 * (l 0 * m 1 - l 1 * m 0) * hl

/-- Powers of unit dual quaternions that are not (nearly) pure translations: the same line, `e` times
the angle and displacement; hence `x¹ = x`, `x⁰ = 1`, `xᵃ⁺ᵇ = xᵃ xᵇ`, `x² = x x`.

Missing: pure translations (angle below EPSILON), where the code doubles the translation, see
`C67_pow_translation_partial` and `C67_pow_false`; and real part exactly -1, a full turn, where the
code divides by `sin π`. -/
theorem C67_pow_partial (x : DQuat ℝ) (hx : x.IsMotion) (h1 : -1 < x.q_real.q0)
    (h2 : P.eps ≤ 2 * Real.arccos x.q_real.q0) :
    (∃ l m theta d, IsLine l m ∧ P.eps ≤ theta ∧ theta < 2 * Real.pi ∧
      (DQuat.new_from_screw_parameters l m theta d).toD = x.toD ∧
      ∀ e, (x.pow e).toD = (DQuat.new_from_screw_parameters l m (e * theta) (e * d)).toD) ∧
    (x.pow 1).toD = x.toD ∧ (x.pow 0).toD = 1 ∧ (x.pow 2).toD = (x.mul x).toD ∧
    (∀ a b, (x.pow (a + b)).toD = ((x.pow a).mul (x.pow b)).toD) ∧
    (∀ e, (x.pow e).IsMotion) := by
  obtain ⟨hl, hs⟩ := line_of x hx h1 h2
  obtain ⟨-, -, -, -, hpi⟩ := arccos_facts x hx h1 h2
  have hp := pow_screw x h2
  have hadd (a b : ℝ) : (x.pow (a + b)).toD = ((x.pow a).mul (x.pow b)).toD := by
    rw [hp, DQuat.toD_mul, hp, hp, ← DQuat.toD_mul, screw_mul hl, add_mul, add_mul]
  have h1' : (x.pow 1).toD = x.toD := by rw [hp, one_mul, one_mul, hs]
  refine ⟨⟨_, _, _, _, hl, h2, by linarith, hs, hp⟩, h1', ?_, ?_, hadd, fun e => ?_⟩
  · rw [hp, zero_mul, zero_mul, screw_zero]
  · rw [← one_add_one_eq_two, hadd, DQuat.toD_mul, DQuat.toD_mul, h1']
  · exact (screw_isMotion hl _ _).congr (hp e).symm

/-- A rotation by a right angle about a line through `(0, 1, 0)`. -/
private noncomputable def sample : DQuat ℝ :=
  DQuat.new (Quat.new_from (3 / 5) (4 / 5) 0 0) (Quat.new_from (-4) 3 5 6)

omit P in
private theorem sample_motion : sample.IsMotion := by
  rw [DQuat.isMotion_iff]
  constructor
  · change (3 / 5 : ℝ) ^ 2 + (4 / 5) ^ 2 + 0 ^ 2 + 0 ^ 2 = 1
    norm_num
  · change (3 / 5 : ℝ) * -4 + 4 / 5 * 3 + 0 * 5 + 0 * 6 = 0
    norm_num

private theorem arccos_ge {q0 : ℝ} (h : q0 ≤ 3 / 5) : P.eps ≤ 2 * Real.arccos q0 := by
  have he := P.eps_le
  have h1 : Real.arccos (3 / 5) ≤ Real.arccos q0 := Real.arccos_le_arccos h
  have h2 : (1 : ℝ) / 2 ≤ Real.arccos (3 / 5) := by
    by_contra hlt
    push Not at hlt
    have h3 := Real.one_sub_sq_div_two_le_cos (x := Real.arccos (3 / 5))
    rw [Real.cos_arccos (by norm_num) (by norm_num)] at h3
    have h4 := Real.arccos_nonneg (3 / 5)
    nlinarith
  norm_num at he
  linarith

example : sample.IsMotion ∧ -1 < sample.q_real.q0 ∧ P.eps ≤ 2 * Real.arccos sample.q_real.q0 :=
  ⟨sample_motion, by change (-1 : ℝ) < 3 / 5; norm_num, arccos_ge (le_refl (3 / 5 : ℝ))⟩

/-- What `pow` does below the threshold: `2 e` times the translation. -/
theorem C67_pow_translation_partial (x : DQuat ℝ) (h : 2 * Real.arccos x.q_real.q0 < P.eps) (e : ℝ) :
    (x.pow e).q_real.toH = 1 ∧ (x.pow e).get_translation = V3.smul x.get_translation (2 * e) := by
  have e2 : ((1 : ℝ) + 1) = 2 := by norm_num
  have hz : nearly_zero (2 * Real.arccos x.q_real.q0) = true := by
    rw [nearly_zero_eq, abs_of_nonneg (by have := Real.arccos_nonneg x.q_real.q0; linarith)]
    simpa using h
  have hp : x.pow e = DQuat.new_from_point (V3.smul x.get_translation e) := by
    unfold DQuat.pow
    simp only [e2, rfloat_acos, DQuat.real, Quat.real, hz, if_true]
  have ht : (x.pow e).q_dual.toH = (V3.smul x.get_translation e).toH := by rw [hp]; rfl
  have hr : (x.pow e).q_real.toH = 1 := by rw [hp]; rfl
  refine ⟨hr, ?_⟩
  rw [← Vec.toH_inj, DQuat.translation_toH, ht, hr, star_one, mul_one, two_mul, H_ext_iff]
  refine ⟨rfl, ?_, ?_, ?_⟩ <;>
    simp only [Quaternion.imI_im, Quaternion.imJ_im, Quaternion.imK_im, Quaternion.imI_add,
      Quaternion.imJ_add, Quaternion.imK_add, Vec.toH_imI, Vec.toH_imJ, Vec.toH_imK, V3.smul_apply] <;>
    ring

private theorem translation_angle (t : Vec 3 ℝ) :
    2 * Real.arccos (DQuat.new_from_translation t).q_real.q0 < P.eps := by
  change 2 * Real.arccos 1 < P.eps
  rw [Real.arccos_one, mul_zero]
  exact P.eps_pos

/-- `pow(1)` of the translation by `(1, 0, 0)` is the translation by `(2, 0, 0)`. -/
theorem C67_pow_false : ∃ x : DQuat ℝ, x.IsMotion ∧ (x.pow 1).toD ≠ x.toD ∧
    (x.pow 1).to_homogeneous ≠ x.to_homogeneous := by
  obtain ⟨hm, -, ht, -, -⟩ :=
    (C61_translation_rotation_partial Quat.one (⟨![1, 0, 0]⟩ : Vec 3 ℝ) V3.zero).1
  obtain ⟨-, h2⟩ := C67_pow_translation_partial _ (translation_angle (⟨![1, 0, 0]⟩ : Vec 3 ℝ)) 1
  rw [ht] at h2
  have key : ((DQuat.new_from_translation (⟨![1, 0, 0]⟩ : Vec 3 ℝ)).pow 1).to_homogeneous
      ≠ (DQuat.new_from_translation (⟨![1, 0, 0]⟩ : Vec 3 ℝ)).to_homogeneous := by
    intro h
    have h3 := congrArg (fun M : Mat 4 ℝ => M 0 3) h
    change ((DQuat.new_from_translation (⟨![1, 0, 0]⟩ : Vec 3 ℝ)).pow 1).get_translation 0
      = (DQuat.new_from_translation (⟨![1, 0, 0]⟩ : Vec 3 ℝ)).get_translation 0 at h3
    rw [ht, h2, V3.smul_apply] at h3
    change (1 : ℝ) * (2 * 1) = 1 at h3
    norm_num at h3
  refine ⟨_, hm, fun h => key ?_, key⟩
  have e (x y : DQuat ℝ) (h : x.toD = y.toD) : x.to_homogeneous = y.to_homogeneous := by
    rw [DQuat.toD_inj, Quat.toH_inj, Quat.toH_inj] at h
    unfold DQuat.to_homogeneous DQuat.to_rotation_translation DQuat.get_translation Quat.to_rotation
      DQuat.real DQuat.dual Quat.real Quat.imag Quat.mul Quat.smul Quat.conj Quat.new
    rw [h.1.1, h.1.2, h.2.1, h.2.2]
  exact e _ _ h

/-! ## C68 screw parameters -/

theorem screw_get (l m : Vec 3 ℝ) (h : IsLine l m) (theta d : ℝ) (h1 : P.eps ≤ theta)
    (h2 : theta < 2 * Real.pi) (x : DQuat ℝ)
    (hx : x.toD = (DQuat.new_from_screw_parameters l m theta d).toD) :
    x.get_screw_parameters = (l, m, theta, d) := by
  have he := P.eps_pos
  have htr := screw_translation h theta d
  obtain ⟨s1, s2, -, -⟩ := screw_comp l m theta d
  obtain ⟨hl, hm⟩ := h
  have hs : 0 < Real.sin (theta / 2) := Real.sin_pos_of_pos_of_lt_pi (by linarith) (by linarith)
  have hsc := Real.sin_sq_add_cos_sq (theta / 2)
  have ht : x.get_translation = (DQuat.new_from_screw_parameters l m theta d).get_translation := by
    rw [← Vec.toH_inj, DQuat.translation_toH, DQuat.translation_toH]
    rw [DQuat.toD_inj] at hx
    rw [hx.1, hx.2]
  rw [DQuat.toD_iff8, s1, s2, s2, s2] at hx
  obtain ⟨⟨hq0, hqi, hqj, hqk⟩, -⟩ := hx
  have hn : V3.norm2 x.q_real.q = Real.sin (theta / 2) := by
    have := V3.norm2_sq x.q_real.q
    rw [hqi, hqj, hqk] at this
    have h0 : 0 ≤ V3.norm2 x.q_real.q := Real.sqrt_nonneg _
    have h3 : V3.norm2 x.q_real.q ^ 2 = Real.sin (theta / 2) ^ 2 := by
      rw [this]
      linear_combination Real.sin (theta / 2) ^ 2 * hl
    exact (pow_left_inj₀ h0 hs.le two_ne_zero).1 h3
  have hang : x.q_real.get_angle = theta := by
    change (1 + 1) * Complex.arg ⟨x.q_real.q0, V3.norm2 x.q_real.q⟩ = theta
    rw [hn, hq0]
    have : (⟨Real.cos (theta / 2), Real.sin (theta / 2)⟩ : ℂ)
        = Complex.cos ((theta / 2 : ℝ) : ℂ) + Complex.sin ((theta / 2 : ℝ) : ℂ) * Complex.I := by
      rw [← Complex.ofReal_cos, ← Complex.ofReal_sin]
      exact Complex.mk_eq_add_mul_I _ _
    rw [this, Complex.arg_cos_add_sin_mul_I ⟨by linarith [Real.pi_pos], by linarith⟩]
    ring
  have hz : nearly_zero theta = false := by
    rw [nearly_zero_eq, abs_of_nonneg (by linarith)]
    simpa using h1
  have e2 : ((1 : ℝ) + 1) = 2 := by norm_num
  have hlv : V3.sdiv x.q_real.q (Real.sin (theta / 2)) = l := by
    refine Vec.ext3 ?_ ?_ ?_ <;> rw [V3.sdiv_apply]
    · rw [hqi, mul_div_cancel_right₀ _ hs.ne']
    · rw [hqj, mul_div_cancel_right₀ _ hs.ne']
    · rw [hqk, mul_div_cancel_right₀ _ hs.ne']
  have hform : x.get_screw_parameters = (l, V3.smul (V3.add (V3.cross x.get_translation l)
      (V3.smul (V3.sub x.get_translation (V3.smul l (V3.dot x.get_translation l)))
        (1 / Real.tan (theta / 2)))) (1 / 2), theta, V3.dot x.get_translation l) := by
    unfold DQuat.get_screw_parameters
    simp only [e2, rfloat_sin, rfloat_tan, DQuat.real, Quat.imag, hang, hz, Bool.not_false, if_true,
      hlv]
  have hdot : V3.dot x.get_translation l = d := by
    rw [ht, V3.dot]
    simp only [entries, htr]
    linear_combination (d) * hl + 2 * Real.sin (theta / 2) * Real.cos (theta / 2) * hm
  rw [hform, hdot]
  refine Prod.ext rfl (Prod.ext ?_ rfl)
  change V3.smul _ _ = m
  rw [Real.tan_eq_sin_div_cos, one_div_div, ht]
  have hs0 := hs.ne'
  refine Vec.ext3 ?_ ?_ ?_ <;>
    simp only [entries, htr] <;>
    generalize Real.sin (theta / 2) = s at * <;> generalize Real.cos (theta / 2) = c at *
  all_goals field_simp
  · linear_combination 2 * s * m 0 * hsc + 2 * s ^ 3 * m 0 * hl - 2 * s ^ 3 * l 0 * hm
  · linear_combination 2 * s * m 1 * hsc + 2 * s ^ 3 * m 1 * hl - 2 * s ^ 3 * l 1 * hm
  · linear_combination 2 * s * m 2 * hsc + 2 * s ^ 3 * m 2 * hl - 2 * s ^ 3 * l 2 * hm

theorem C68_from_parameters (l m : Vec 3 ℝ) (h : IsLine l m) (theta d : ℝ) (h1 : P.eps ≤ theta)
    (h2 : theta < 2 * Real.pi) :
    (DQuat.new_from_screw_parameters l m theta d).get_screw_parameters = (l, m, theta, d) :=
  screw_get l m h theta d h1 h2 _ rfl

theorem C68_round_trip (x : DQuat ℝ) (hx : x.IsMotion) (h1 : P.eps ≤ x.q_real.get_angle)
    (h2 : x.q_real.get_angle < 2 * Real.pi) (l m : Vec 3 ℝ) (theta d : ℝ)
    (h : x.get_screw_parameters = (l, m, theta, d)) :
    IsLine l m ∧ theta = x.q_real.get_angle ∧
    (DQuat.new_from_screw_parameters l m theta d).toD = x.toD := by
  have hu := (DQuat.isMotion_iff.1 hx).1
  have hn0 : 0 ≤ V3.norm2 x.q_real.q := Real.sqrt_nonneg _
  have hn2 := V3.norm2_sq x.q_real.q
  obtain ⟨hs, hc⟩ := arg_sin_cos x.q_real.q0 (V3.norm2 x.q_real.q) (by rw [hn2]; linarith)
  have hang : x.q_real.get_angle = 2 * Complex.arg ⟨x.q_real.q0, V3.norm2 x.q_real.q⟩ := by
    change (1 + 1) * Complex.arg ⟨x.q_real.q0, V3.norm2 x.q_real.q⟩ = _
    rw [one_add_one_eq_two]
  have ha0 : 0 ≤ Complex.arg ⟨x.q_real.q0, V3.norm2 x.q_real.q⟩ := Complex.arg_nonneg_iff.2 hn0
  have hapi := Complex.arg_le_pi ⟨x.q_real.q0, V3.norm2 x.q_real.q⟩
  have harc : Real.arccos x.q_real.q0 = Complex.arg ⟨x.q_real.q0, V3.norm2 x.q_real.q⟩ := by
    rw [← Real.arccos_cos ha0 hapi, hc]
  have hang' : x.q_real.get_angle = 2 * Real.arccos x.q_real.q0 := by rw [hang, harc]
  rw [hang'] at h1 h2 ⊢
  have hq1 : -1 < x.q_real.q0 := by
    by_contra hle
    push Not at hle
    rw [Real.arccos_of_le_neg_one hle] at h2
    exact lt_irrefl _ h2
  obtain ⟨hl, hs⟩ := line_of x hx hq1 h1
  have := screw_get _ _ hl _ _ h1 h2 x hs.symm
  rw [h] at this
  obtain ⟨e1, e2, e3, e4⟩ : l = powL x ∧ m = powM x ∧ theta = 2 * Real.arccos x.q_real.q0 ∧ d = powD x := by
    simpa only [Prod.mk.injEq] using this
  rw [e1, e2, e3, e4]
  exact ⟨hl, rfl, hs⟩

example : IsLine (⟨![3 / 5, 4 / 5, 0]⟩ : Vec 3 ℝ) ⟨![-4, 3, 7]⟩ := by
  constructor
  · change (3 / 5 : ℝ) ^ 2 + (4 / 5) ^ 2 + 0 ^ 2 = 1
    norm_num
  · change (3 / 5 : ℝ) * -4 + 4 / 5 * 3 + 0 * 7 = 0
    norm_num

/-! ## C69 interpolation -/

omit P in
/-- Equal components give equal matrices. -/
theorem homogeneous_congr {x y : DQuat ℝ} (h : x.toD = y.toD) :
    x.to_homogeneous = y.to_homogeneous := by
  rw [DQuat.toD_inj, Quat.toH_inj, Quat.toH_inj] at h
  unfold DQuat.to_homogeneous DQuat.to_rotation_translation DQuat.get_translation Quat.to_rotation
    DQuat.real DQuat.dual Quat.real Quat.imag Quat.mul Quat.smul Quat.conj Quat.new
  rw [h.1.1, h.1.2, h.2.1, h.2.2]

theorem motion_inverse (a : DQuat ℝ) (ha : a.IsMotion) :
    ∃ y, a.inverse = .ok y ∧ y.toD = a.conj.toD ∧ a.toD * y.toD = 1 ∧ y.toD * a.toD = 1 := by
  have he := P.eps_le
  obtain ⟨h1, h2⟩ := C64_inverse_partial a ⟨fun _ => ha, fun _ => ha.norm⟩
  rcases h2 with h2 | ⟨y, h2, h3, h4⟩
  · have := (h1.1 h2).2.2
    rw [ha.norm] at this
    norm_num at he
    linarith
  · refine ⟨y, h2, ?_, h3, h4⟩
    have hc := ha.mul_conj.1
    rw [DQuat.toD_mul] at hc
    rw [← one_mul a.conj.toD, ← h4, mul_assoc, hc, mul_one]

/-- The start value the code actually uses. -/
noncomputable def lerpStart (a b : DQuat ℝ) : DQuat ℝ :=
  if (a.q_real.toH * b.q_real.toH).re < 0 then ⟨a.q_real.smul (-1), a.q_dual, a.normalized⟩ else a

theorem lerp_eq (a b : DQuat ℝ) (tau : ℝ) (y : DQuat ℝ) (hy : (lerpStart a b).inverse = .ok y) :
    DQuat.screw_lerp a b tau = .ok ((lerpStart a b).mul ((y.mul b).pow tau)) := by
  have e : (if ROrd.lt (a.real.mul b.real).real 0 then
      { a with q_real := a.real.smul (-1) } else a) = lerpStart a b := by
    unfold lerpStart
    rw [← Quat.toH_mul]
    simp only [rord_lt, decide_eq_true_eq]
    rfl
  unfold DQuat.screw_lerp
  dsimp only
  rw [e, hy]
  rfl

omit P in
theorem start_motion (a b : DQuat ℝ) (ha : a.IsMotion) : (lerpStart a b).IsMotion := by
  unfold lerpStart
  split
  · have e : (a.q_real.smul (-1)).toH = -a.q_real.toH := by
      rw [Quat.toH_smul, neg_one_smul]
    refine ⟨?_, ?_⟩
    · change normSq (a.q_real.smul (-1)).toH = 1
      rw [e, Quaternion.normSq_neg, ha.norm]
    · change ((a.q_real.smul (-1)).toH * star a.q_dual.toH).re = 0
      rw [e, neg_mul, Quaternion.re_neg, ha.orth, neg_zero]
  · exact ha

/-- With `r` the cosine of half the angle between the (sign-adjusted) orientations, the end point is
right whenever the two differ by at least EPSILON and less than a full turn, and the start point is
right when moreover the real part of the product of the real parts is not negative (that is the test
the code makes, instead of the scalar product).

Missing: the start point in the other case, where the code keeps the rotation but returns the
translation negated (last clause and `C69_begin_false`), and the end point when the two motions
differ by a pure translation (`C69_end_false`). -/
theorem C69_screw_lerp_partial (a b : DQuat ℝ) (ha : a.IsMotion) (hb : b.IsMotion) (r : ℝ)
    (hr : r = if (a.q_real.toH * b.q_real.toH).re < 0 then -(star a.q_real.toH * b.q_real.toH).re
      else (star a.q_real.toH * b.q_real.toH).re)
    (h1 : -1 < r) (h2 : P.eps ≤ 2 * Real.arccos r) :
    ∃ y0 y1, DQuat.screw_lerp a b 0 = .ok y0 ∧ DQuat.screw_lerp a b 1 = .ok y1 ∧
      y1.toD = b.toD ∧ y1.to_homogeneous = b.to_homogeneous ∧
      (0 ≤ (a.q_real.toH * b.q_real.toH).re →
        y0.toD = a.toD ∧ y0.to_homogeneous = a.to_homogeneous) ∧
      ((a.q_real.toH * b.q_real.toH).re < 0 →
        y0.q_real.toH = -a.q_real.toH ∧ y0.q_dual.toH = a.q_dual.toH ∧
        y0.q_real.to_rotation = a.q_real.to_rotation ∧
        y0.get_translation = V3.neg a.get_translation) := by
  have hs := start_motion a b ha
  obtain ⟨y, hy, hc, hy1, hy2⟩ := motion_inverse _ hs
  have hcm : (lerpStart a b).conj.IsMotion := by
    refine ⟨?_, ?_⟩
    · change normSq (lerpStart a b).q_real.conj.toH = 1
      rw [Quat.toH_conj, Quaternion.normSq_star, hs.norm]
    · change ((lerpStart a b).q_real.conj.toH * star (lerpStart a b).q_dual.conj.toH).re = 0
      have := hs.orth
      rw [Quat.toH_conj, Quat.toH_conj]
      simp only [Quaternion.re_mul, Quaternion.re_star, Quaternion.imI_star, Quaternion.imJ_star,
        Quaternion.imK_star] at this ⊢
      linarith
  have hz : (y.mul b).IsMotion := (hcm.congr hc.symm).mul hb
  have hq0 : (y.mul b).q_real.q0 = r := by
    change (y.q_real.mul b.q_real).toH.re = r
    rw [Quat.toH_mul, (DQuat.toD_inj.1 hc).1, hr]
    change ((lerpStart a b).q_real.conj.toH * b.q_real.toH).re = _
    rw [Quat.toH_conj]
    unfold lerpStart
    split
    · change (star (a.q_real.smul (-1)).toH * b.q_real.toH).re = _
      rw [Quat.toH_smul, neg_one_smul, star_neg, neg_mul, Quaternion.re_neg]
    · rfl
  rw [← hq0] at h1 h2
  obtain ⟨-, p1, p0, -⟩ := C67_pow_partial (y.mul b) hz h1 h2
  have f1 : ((lerpStart a b).mul ((y.mul b).pow 1)).toD = b.toD := by
    rw [DQuat.toD_mul, p1, DQuat.toD_mul, ← mul_assoc, hy1, one_mul]
  have f0 : ((lerpStart a b).mul ((y.mul b).pow 0)).toD = (lerpStart a b).toD := by
    rw [DQuat.toD_mul, p0, mul_one]
  refine ⟨_, _, lerp_eq a b 0 y hy, lerp_eq a b 1 y hy, f1, homogeneous_congr f1, fun h => ?_,
    fun h => ?_⟩
  · have e : lerpStart a b = a := if_neg (not_lt.2 h)
    rw [e] at f0 ⊢
    exact ⟨f0, homogeneous_congr f0⟩
  · have e : lerpStart a b = ⟨a.q_real.smul (-1), a.q_dual, a.normalized⟩ := if_pos h
    rw [DQuat.toD_inj] at f0
    have g1 : ((lerpStart a b).mul ((y.mul b).pow 0)).q_real.toH = -a.q_real.toH := by
      rw [f0.1, e]
      change (a.q_real.smul (-1)).toH = _
      rw [Quat.toH_smul, neg_one_smul]
    have g2 : ((lerpStart a b).mul ((y.mul b).pow 0)).q_dual.toH = a.q_dual.toH := by rw [f0.2, e]
    refine ⟨g1, g2, ?_, ?_⟩
    · have hn : -a.q_real.toH = a.q_real.neg.toH := (Quat.toH_neg _).symm
      rw [hn, Quat.toH_inj] at g1
      refine Mat.ext3 ?_ ?_ ?_ ?_ ?_ ?_ ?_ ?_ ?_ <;>
        simp only [Quat.rot00, Quat.rot01, Quat.rot02, Quat.rot10, Quat.rot11, Quat.rot12, Quat.rot20,
          Quat.rot21, Quat.rot22, g1, Quat.neg, Quat.new, V3.neg_apply] <;> ring
    · have hn (v : Vec 3 ℝ) : (V3.neg v).toH = -v.toH := by
        rw [H_ext_iff]
        exact ⟨neg_zero.symm, rfl, rfl, rfl⟩
      rw [← Vec.toH_inj, DQuat.translation_toH, g1, g2, hn, DQuat.translation_toH, star_neg, mul_neg]
      exact Quaternion.im_neg _

/-- From the identity to a motion with rotation: the hypotheses of `C69_screw_lerp_partial` hold. -/
example : ∃ y0 y1, DQuat.screw_lerp DQuat.one sample 0 = .ok y0 ∧
    DQuat.screw_lerp DQuat.one sample 1 = .ok y1 ∧ y1.toD = sample.toD ∧ y0.toD = DQuat.one.toD := by
  have h1 : (DQuat.one : DQuat ℝ).IsMotion :=
    ((C64_flags_partial DQuat.one).2.2.1).flag rfl
  have e : (DQuat.one : DQuat ℝ).q_real.toH = 1 := rfl
  have e0 : sample.q_real.toH.re = 3 / 5 := rfl
  obtain ⟨y0, y1, a0, a1, b1, -, b0, -⟩ := C69_screw_lerp_partial DQuat.one sample h1 sample_motion
    (3 / 5) (by rw [e, star_one, one_mul, e0]; norm_num) (by norm_num) (arccos_ge le_rfl)
  exact ⟨y0, y1, a0, a1, b1, (b0 (by rw [e, one_mul, e0]; norm_num)).1⟩

/-- `screw_lerp(a, b, 0)` is not `a`: `a` a half turn about the x axis with translation `(1, 0, 0)`,
`b` a rotation about the x axis. -/
theorem C69_begin_false : ∃ a b y : DQuat ℝ, a.IsMotion ∧ b.IsMotion ∧
    DQuat.screw_lerp a b 0 = .ok y ∧ y.to_homogeneous ≠ a.to_homogeneous := by
  obtain ⟨q, hq⟩ : ∃ q : Quat ℝ, q = Quat.new_from 0 1 0 0 := ⟨_, rfl⟩
  obtain ⟨p, hp⟩ : ∃ p : Quat ℝ, p = Quat.new_from (4 / 5) (3 / 5) 0 0 := ⟨_, rfl⟩
  have hq1 : normSq q.toH = 1 := by
    rw [Quat.unit_iff, hq]
    change (0 : ℝ) ^ 2 + 1 ^ 2 + 0 ^ 2 + 0 ^ 2 = 1
    norm_num
  have hp1 : normSq p.toH = 1 := by
    rw [Quat.unit_iff, hp]
    change (4 / 5 : ℝ) ^ 2 + (3 / 5) ^ 2 + 0 ^ 2 + 0 ^ 2 = 1
    norm_num
  obtain ⟨a, -, -, -, ar, am, at', -⟩ := C61_rot_trans_partial q hq1 ⟨![1, 0, 0]⟩ V3.zero
  have hb := (C61_translation_rotation_partial p V3.zero V3.zero).2.2.2.2 hp1
  have q0 : q.toH.re = 0 := by rw [hq]; rfl
  have qi : q.toH.imI = 1 := by rw [hq]; rfl
  have qj : q.toH.imJ = 0 := by rw [hq]; rfl
  have qk : q.toH.imK = 0 := by rw [hq]; rfl
  have p0 : p.toH.re = 4 / 5 := by rw [hp]; rfl
  have pi : p.toH.imI = 3 / 5 := by rw [hp]; rfl
  have pj : p.toH.imJ = 0 := by rw [hp]; rfl
  have pk : p.toH.imK = 0 := by rw [hp]; rfl
  have hneg : (a.q_real.toH * (DQuat.new_from_rotation p).q_real.toH).re = -(3 / 5) := by
    rw [ar]
    change (q.toH * p.toH).re = _
    simp only [Quaternion.re_mul, q0, qi, qj, qk, p0, pi, pj, pk]
    norm_num
  have hr : -(3 / 5 : ℝ) = if (a.q_real.toH * (DQuat.new_from_rotation p).q_real.toH).re < 0 then
      -(star a.q_real.toH * (DQuat.new_from_rotation p).q_real.toH).re
      else (star a.q_real.toH * (DQuat.new_from_rotation p).q_real.toH).re := by
    rw [hneg, if_pos (by norm_num), ar]
    change _ = -(star q.toH * p.toH).re
    simp only [Quaternion.re_mul, Quaternion.re_star, Quaternion.imI_star, Quaternion.imJ_star,
      Quaternion.imK_star, q0, qi, qj, qk, p0, pi, pj, pk]
    norm_num
  obtain ⟨y0, -, h0, -, -, -, -, hn⟩ := C69_screw_lerp_partial a _ am hb _ hr (by norm_num)
    (arccos_ge (by norm_num))
  refine ⟨a, _, y0, am, hb, h0, fun h => ?_⟩
  have h3 := congrArg (fun M : Mat 4 ℝ => M 0 3) h
  change y0.get_translation 0 = a.get_translation 0 at h3
  rw [(hn (by rw [hneg]; norm_num)).2.2.2, V3.neg_apply, at'] at h3
  change -(1 : ℝ) = 1 at h3
  norm_num at h3

/-- `screw_lerp(a, b, 1)` is not `b`: from the identity to the translation by `(1, 0, 0)` it ends at
the translation by `(2, 0, 0)`. -/
theorem C69_end_false : ∃ a b y : DQuat ℝ, a.IsMotion ∧ b.IsMotion ∧
    DQuat.screw_lerp a b 1 = .ok y ∧ y.to_homogeneous ≠ b.to_homogeneous := by
  obtain ⟨hb, hb1, ht, -⟩ :=
    (C61_translation_rotation_partial Quat.one (⟨![1, 0, 0]⟩ : Vec 3 ℝ) V3.zero).1
  obtain ⟨b, hbe⟩ : ∃ b, b = DQuat.new_from_translation (⟨![1, 0, 0]⟩ : Vec 3 ℝ) := ⟨_, rfl⟩
  rw [← hbe] at hb hb1 ht
  have h1 : (DQuat.one : DQuat ℝ).IsMotion :=
    ((C64_flags_partial DQuat.one).2.2.1).flag rfl
  have e : (DQuat.one : DQuat ℝ).q_real.toH = 1 := rfl
  have hst : lerpStart DQuat.one b = DQuat.one := if_neg (by
    rw [e, one_mul, hb1, Quaternion.re_one]; norm_num)
  obtain ⟨y, hy, hc, hy1, hy2⟩ := motion_inverse DQuat.one h1
  have hyd : y.toD = 1 := by rw [DQuat.toD_one, one_mul] at hy1; exact hy1
  have hyb : (y.mul b).toD = b.toD := by rw [DQuat.toD_mul, hyd, one_mul]
  have hlt : 2 * Real.arccos (y.mul b).q_real.q0 < P.eps := by
    have := (DQuat.toD_iff8.1 hyb).1.1
    rw [this, hbe]
    exact translation_angle _
  obtain ⟨g1, g2⟩ := C67_pow_translation_partial (y.mul b) hlt 1
  refine ⟨DQuat.one, b, _, h1, hb, lerp_eq _ b 1 y (by rw [hst]; exact hy), fun h => ?_⟩
  have h2 : (DQuat.one.mul ((y.mul b).pow 1)).toD = ((y.mul b).pow 1).toD := by
    rw [DQuat.toD_mul, DQuat.toD_one, one_mul]
  have htr (x y : DQuat ℝ) (h : x.toD = y.toD) : x.get_translation = y.get_translation := by
    rw [DQuat.toD_inj] at h
    rw [← Vec.toH_inj, DQuat.translation_toH, DQuat.translation_toH, h.1, h.2]
  rw [hst, homogeneous_congr h2] at h
  have h3 := congrArg (fun M : Mat 4 ℝ => M 0 3) h
  change ((y.mul b).pow 1).get_translation 0 = b.get_translation 0 at h3
  rw [g2, htr _ _ hyb, ht, V3.smul_apply] at h3
  change (1 : ℝ) * (2 * 1) = 1 at h3
  norm_num at h3

/-! ## C119 screw_lerp turns and shifts about one line with constant speed -/

/-- Between two motions that differ by at least EPSILON and less than a full turn, with the test of
the code not negative, every point of the path is the start followed by a screw about one line, the
angle and the displacement proportional to the parameter; every point is a motion, and the motion
from one point of the path to another depends on the difference of the parameters only. -/
theorem C119_screw_lerp (a b : DQuat ℝ) (ha : a.IsMotion) (hb : b.IsMotion)
    (h0 : 0 ≤ (a.q_real.toH * b.q_real.toH).re) (h1 : -1 < (star a.q_real.toH * b.q_real.toH).re)
    (h2 : P.eps ≤ 2 * Real.arccos (star a.q_real.toH * b.q_real.toH).re) :
    ∃ (l m : Vec 3 ℝ) (theta d : ℝ) (y : ℝ → DQuat ℝ), IsLine l m ∧ P.eps ≤ theta ∧
      theta < 2 * Real.pi ∧ (∀ t, DQuat.screw_lerp a b t = .ok (y t)) ∧
      b.toD = a.toD * (DQuat.new_from_screw_parameters l m theta d).toD ∧
      (∀ t, (y t).toD = a.toD * (DQuat.new_from_screw_parameters l m (t * theta) (t * d)).toD) ∧
      (∀ t, (y t).IsMotion) ∧
      ∀ s t, (y t).toD
        = (y s).toD * (DQuat.new_from_screw_parameters l m ((t - s) * theta) ((t - s) * d)).toD := by
  have hst : lerpStart a b = a := if_neg (not_lt.2 h0)
  obtain ⟨y, hy, hc, hy1, hy2⟩ := motion_inverse a ha
  have hcm : a.conj.IsMotion := by
    refine ⟨?_, ?_⟩
    · change normSq a.q_real.conj.toH = 1
      rw [Quat.toH_conj, Quaternion.normSq_star, ha.norm]
    · change (a.q_real.conj.toH * star a.q_dual.conj.toH).re = 0
      have := ha.orth
      rw [Quat.toH_conj, Quat.toH_conj]
      simp only [Quaternion.re_mul, Quaternion.re_star, Quaternion.imI_star, Quaternion.imJ_star,
        Quaternion.imK_star] at this ⊢
      linarith
  have hz : (y.mul b).IsMotion := (hcm.congr hc.symm).mul hb
  have hq0 : (y.mul b).q_real.q0 = (star a.q_real.toH * b.q_real.toH).re := by
    change (y.q_real.mul b.q_real).toH.re = _
    rw [Quat.toH_mul, (DQuat.toD_inj.1 hc).1]
    change (a.q_real.conj.toH * b.q_real.toH).re = _
    rw [Quat.toH_conj]
  rw [← hq0] at h1 h2
  obtain ⟨⟨l, m, theta, d, hl, ht, ht2, hs, hp⟩, -, -, -, -, hmo⟩ := C67_pow_partial (y.mul b) hz h1 h2
  refine ⟨l, m, theta, d, fun t => a.mul ((y.mul b).pow t), hl, ht, ht2, fun t => ?_, ?_, fun t => ?_,
    fun t => ha.mul (hmo t), fun s t => ?_⟩
  · have := lerp_eq a b t y (by rw [hst]; exact hy)
    rwa [hst] at this
  · rw [hs, DQuat.toD_mul, ← mul_assoc, hy1, one_mul]
  · rw [DQuat.toD_mul, hp]
  · rw [DQuat.toD_mul, DQuat.toD_mul, hp, hp, mul_assoc]
    refine congrArg (a.toD * ·) ?_
    rw [← DQuat.toD_mul, screw_mul hl]
    congr 2 <;> ring

/-- From the identity to a screw about a line. -/
example : ∃ a b : DQuat ℝ, a.IsMotion ∧ b.IsMotion ∧ 0 ≤ (a.q_real.toH * b.q_real.toH).re ∧
    -1 < (star a.q_real.toH * b.q_real.toH).re ∧
    P.eps ≤ 2 * Real.arccos (star a.q_real.toH * b.q_real.toH).re := by
  have h1 : (DQuat.one : DQuat ℝ).IsMotion :=
    ((C64_flags_partial DQuat.one).2.2.1).flag rfl
  have e : (DQuat.one : DQuat ℝ).q_real.toH = 1 := rfl
  have e0 : sample.q_real.toH.re = 3 / 5 := rfl
  refine ⟨DQuat.one, sample, h1, sample_motion, ?_, ?_, ?_⟩
  · rw [e, one_mul, e0]; norm_num
  · rw [e, star_one, one_mul, e0]; norm_num
  · rw [e, star_one, one_mul, e0]; exact arccos_ge le_rfl

/-! ## C70 is_normalized -/

/-- Missing: real parts of norm below EPSILON, for which the answer is `true`; see
`C70_is_normalized_false`. -/
theorem C70_is_normalized_partial (x : DQuat ℝ) :
    (x.normalized = true → x.is_normalized = true) ∧
    (x.normalized = false → x.is_normalized = true → P.eps ≤ ‖x.q_real.toH‖ →
      |‖x.q_real.toH‖ - 1| < 3 * P.eps) ∧
    (‖x.q_real.toH‖ = 1 → x.is_normalized = true) := by
  have he := P.eps_pos
  have he1 := P.eps_le
  have hM : (3 : ℝ) ≤ P.maxVal := le_trans (by norm_num) P.maxVal_ge
  have hn : x.q_real.norm2 = ‖x.q_real.toH‖ := by
    rw [Quat.norm2_eq, Quaternion.normSq_eq_norm_mul_self, Real.sqrt_mul_self (norm_nonneg _)]
  have hn0 := norm_nonneg x.q_real.toH
  refine ⟨fun h => by unfold DQuat.is_normalized; rw [if_pos h], fun h ht hlo => ?_, fun h => ?_⟩
  · unfold DQuat.is_normalized at ht
    have hz : nearly_zero ‖x.q_real.toH‖ = false := by
      rw [nearly_zero_eq, abs_of_nonneg hn0]
      simpa using hlo
    simp only [h, Bool.false_eq_true, if_false, DQuat.real, hn, hz, Bool.and_eq_true] at ht
    have h1 := ht.1
    rw [C35_nearly_equal] at h1
    generalize ‖x.q_real.toH‖ = n at *
    rcases h1 with h1 | ⟨h1 | h1, -⟩ | ⟨-, -, h1⟩
    · rw [h1, sub_self, abs_zero]; linarith
    · rw [h1] at hlo; linarith
    · norm_num at h1
    · rw [abs_of_nonneg hn0, abs_one] at h1
      norm_num at he1
      have hmin : 0 < min (n + 1) P.maxVal := lt_min (by linarith) (by linarith)
      rw [rfloat_epsilon] at h1
      have h2 : min (n + 1) P.maxVal ≤ n + 1 := min_le_left _ _
      have h3 : |n - 1| < P.eps * (n + 1) := lt_of_lt_of_le h1 (by gcongr)
      have h4 : n - 1 ≤ |n - 1| := le_abs_self _
      have h5 : n ≤ 3 / 2 := by nlinarith
      nlinarith
  · unfold DQuat.is_normalized
    have hself (a b : ℝ) (h : a = b) : nearly_equal a b P.eps = true := by
      rw [C35_nearly_equal]; exact Or.inl h
    have hd0 : (x.q_dual.sdiv 1).q0 = x.q_dual.q0 := div_one _
    have hdi (i : Fin 3) : (x.q_dual.sdiv 1).q i = x.q_dual.q i :=
      (V3.sdiv_apply _ _ _).trans (div_one _)
    simp only [DQuat.real, DQuat.dual, Quat.real, Quat.imag, hn, h, rfloat_epsilon, hd0, hdi]
    rw [hself _ _ rfl, hself _ _ rfl, hself _ _ rfl, hself _ _ rfl, hself _ _ rfl]
    simp

theorem C70_is_normalized_false : ∃ x : DQuat ℝ, x.is_normalized = true ∧ ‖x.q_real.toH‖ = 0 := by
  have h0 : ‖(DQuat.zero : DQuat ℝ).q_real.toH‖ = 0 := by
    change ‖(Quat.zero : Quat ℝ).toH‖ = 0
    rw [Quat.toH_zero, norm_zero]
  refine ⟨DQuat.zero, ?_, h0⟩
  have hn : (DQuat.zero : DQuat ℝ).q_real.norm2 = 0 := by
    rw [Quat.norm2_eq, Quaternion.normSq_eq_norm_mul_self, Real.sqrt_mul_self (norm_nonneg _), h0]
  have hz : nearly_zero (0 : ℝ) = true := by
    rw [nearly_zero_eq, abs_zero]
    simpa using P.eps_pos
  unfold DQuat.is_normalized
  simp only [DQuat.real, hn, hz, if_true, ite_self]

example : (DQuat.new (Quat.new_from 2 0 0 0) Quat.one : DQuat ℝ).normalized = false := rfl

/-! ## C71 log -/

/-- Missing: flagged unit dual quaternions whose rotation is (nearly) trivial, for which the code
panics; see `C71_log_false`. -/
theorem C71_log_partial (x : DQuat ℝ) (hx : x.Truthful) :
    (x.log = .ok none ↔ x.normalized = false) ∧
    (x.normalized = true → V3.norm2 x.q_real.imag ≤ P.eps → x.log = .error (.expect "there is no axis")) ∧
    (x.normalized = true → P.eps < V3.norm2 x.q_real.imag → ∃ y u,
      x.log = .ok (some y) ∧ x.q_real.get_axis = some u ∧ V3.norm2 u = 1 ∧
      y.q_real.q0 = 0 ∧ (∀ i, y.q_real.q i = u i * (x.q_real.get_angle / 2)) ∧
      y.q_dual.q0 = 0 ∧ (∀ i, y.q_dual.q i = x.get_translation i / 2)) := by
  by_cases hf : x.normalized = true
  · obtain ⟨h1, h2, h3⟩ := C52_axis_angle x.q_real (hx.flag hf).norm
    rw [h2] at h1
    unfold DQuat.log
    simp only [hf, if_true, DQuat.real, Quat.axis_angle]
    by_cases hs : V3.norm2 x.q_real.imag ≤ P.eps
    · rw [h1.2 hs]
      refine ⟨⟨fun h => (by cases h), fun h => (by cases h)⟩, fun _ _ => rfl,
        fun _ h => absurd hs (not_le.2 h)⟩
    · obtain ⟨u, r, hu, hn, -⟩ := h3 (not_le.1 hs)
      rw [hu]
      refine ⟨⟨fun h => (by cases h), fun h => (by cases h)⟩, fun _ h => absurd h hs, fun _ _ =>
        ⟨_, u, rfl, rfl, hn, rfl, fun i => ?_, rfl, fun i => ?_⟩⟩
      · change V3.smul (V3.smul u (1 / (1 + 1))) x.q_real.get_angle i = _
        rw [V3.smul_apply, V3.smul_apply]
        ring
      · change V3.smul x.get_translation (1 / (1 + 1)) i = _
        rw [V3.smul_apply]
        ring
  · unfold DQuat.log
    simp only [hf, Bool.false_eq_true, if_false]
    exact ⟨⟨fun _ => trivial, fun _ => rfl⟩, fun h => absurd h (by simp), fun h => absurd h (by simp)⟩

/-- The identity is a flagged unit dual quaternion, and `log` panics on it. -/
theorem C71_log_false : ∃ x : DQuat ℝ, x.normalized = true ∧ x.IsMotion ∧
    x.log = .error (.expect "there is no axis") := by
  have ht := (C64_flags_partial DQuat.one).2.2.1
  refine ⟨DQuat.one, rfl, ht.flag rfl, (C71_log_partial _ ht).2.1 rfl ?_⟩
  have : V3.norm2 (DQuat.one : DQuat ℝ).q_real.imag = 0 := (V3.norm2_zero _).2 rfl
  rw [this]
  exact P.eps_pos.le

/-- A flagged motion with a proper rotation. -/
example : ∃ x : DQuat ℝ, x.Truthful ∧ x.normalized = true ∧ P.eps < V3.norm2 x.q_real.imag := by
  have he := P.eps_le
  refine ⟨DQuat.new_from_rotation (Quat.new_from (3 / 5) (4 / 5) 0 0),
    (C64_flags_partial DQuat.one).2.2.2.2.2.2.2.2.2.2.2.2.2.2.2.2.1 _ sample_motion.norm, rfl, ?_⟩
  have h2 := V3.norm2_sq (⟨![4 / 5, 0, 0]⟩ : Vec 3 ℝ)
  have h0 : 0 ≤ V3.norm2 (⟨![4 / 5, 0, 0]⟩ : Vec 3 ℝ) := Real.sqrt_nonneg _
  change V3.norm2 (⟨![4 / 5, 0, 0]⟩ : Vec 3 ℝ) ^ 2 = (4 / 5) ^ 2 + 0 ^ 2 + 0 ^ 2 at h2
  change P.eps < V3.norm2 (⟨![4 / 5, 0, 0]⟩ : Vec 3 ℝ)
  norm_num at he
  nlinarith

end

end StaticMath

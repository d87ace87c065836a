import Verif.Props.Agree
import Verif.Props.Isometry
import Verif.Props.DualAlgebra

/-!
# C164: every program of rigid motions, with dual quaternions and with homogeneous matrices
-/

namespace StaticMath
open Quaternion

/-- Programs that compute a rigid motion: the ways to make one, and the operations on them. -/
inductive Motion : Type
  | one
  | rotation (theta : ℝ) (v : Vec 3 ℝ)
  | euler (yaw pitch roll : ℝ)
  | matrix (R : Mat 3 ℝ)
  | translation (t : Vec 3 ℝ)
  | rotTrans (q : Quat ℝ) (t : Vec 3 ℝ)
  | homogeneous (H : Mat 4 ℝ)
  | screw (l m : Vec 3 ℝ) (theta d : ℝ)
  | mul (a b : Motion)
  | inverse (a : Motion)
  | conj (a : Motion)
  | neg (a : Motion)
  | normalize (a : Motion)
  | convert (a : Motion)

/-- What the constructors ask of their arguments. -/
def Motion.Valid [P : RealParams] : Motion → Prop
  | one => True
  | rotation _ v => v ≠ V3.zero
  | euler _ _ _ => True
  | matrix R => IsRot R
  | translation _ => True
  | rotTrans q _ => normSq q.toH = 1
  | homogeneous H => IsRigid H
  | screw l m theta _ => IsLine l m ∧ P.eps ≤ theta
  | mul a b => a.Valid ∧ b.Valid
  | inverse a => a.Valid
  | conj a => a.Valid
  | neg a => a.Valid
  | normalize a => a.Valid
  | convert a => a.Valid

/-- The program run with dual quaternions. -/
noncomputable def Motion.dual [RealParams] : Motion → MayPanic (DQuat ℝ)
  | one => pure DQuat.one
  | rotation theta v => do pure (DQuat.new_from_rotation (← Quat.rotation theta v))
  | euler yaw pitch roll => pure (DQuat.new_from_rotation (Quat.from_euler_angles yaw pitch roll))
  | matrix R => pure (DQuat.new_from_rotation_matrix R)
  | translation t => pure (DQuat.new_from_translation t)
  | rotTrans q t => DQuat.new_from_rot_trans q t
  | homogeneous H => DQuat.new_from_homogeneous H
  | screw l m theta d => pure (DQuat.new_from_screw_parameters l m theta d)
  | mul a b => do pure ((← a.dual).mul (← b.dual))
  | inverse a => do (← a.dual).inverse
  | conj a => do pure (← a.dual).conj
  | neg a => do pure (← a.dual).neg
  | normalize a => do unwrapSome (← a.dual).normalize
  | convert a => do DQuat.new_from_homogeneous (← a.dual).to_homogeneous

/-- The program run with homogeneous matrices: Rodrigues' formula, products of rotation matrices, the matrix exponential and the general
inverse of 4 by 4 matrices. A sign, normalization and conversion are not needed here. -/
noncomputable def Motion.hom [RealParams] : Motion → MayPanic (Mat 4 ℝ)
  | one => pure M44.one
  | rotation theta v => do
    let u ← expectOk "zero" (← V3.normalize v)
    pure (homogeneous_from_rotation (rotation_from_axis_angle u theta) V3.zero)
  | euler yaw pitch roll => pure (homogeneous_from_rotation (M33.mul (M33.mul (rotz yaw) (roty pitch)) (rotx roll)) V3.zero)
  | matrix R => pure (homogeneous_from_rotation R V3.zero)
  | translation t => pure (translation_3d (t 0) (t 1) (t 2))
  | rotTrans q t => pure (homogeneous_from_quaternion q t)
  | homogeneous H => pure H
  | screw l m theta d => matrix_exponential6 (twist_to_se3 ⟨![theta * l 0, theta * l 1, theta * l 2, theta * m 0 + d * l 0,
      theta * m 1 + d * l 1, theta * m 2 + d * l 2]⟩)
  | mul a b => do pure (M44.mul (← a.hom) (← b.hom))
  | inverse a => do unwrapSome (← M44.inverse (← a.hom))
  | conj a => do pure (homogeneous_inverse (← a.hom))
  | neg a => a.hom
  | normalize a => a.hom
  | convert a => a.hom

section
variable [P : RealParams]

omit P in
theorem DQuat.IsMotion.rigid {x : DQuat ℝ} (hx : x.IsMotion) : IsRigid x.to_homogeneous := by
  obtain ⟨r1, r2, -, -⟩ := C48_to_rotation x.q_real x.q_real hx.norm
  have hR : IsRot x.q_real.to_rotation := by
    rw [IsRot, Matrix.mem_specialOrthogonalGroup_iff, Matrix.mem_orthogonalGroup_iff]
    exact ⟨r1, r2⟩
  exact isRigid_from hR x.get_translation

omit P in
private theorem one_hom : (DQuat.one : DQuat ℝ).to_homogeneous = M44.one := by
  have h := (C61_translation_rotation_partial (Quat.one : Quat ℝ) V3.zero V3.zero).2
  have h1 : (Quat.one : Quat ℝ).to_rotation = M33.one := by
    refine Mat.ext3 ?_ ?_ ?_ ?_ ?_ ?_ ?_ ?_ ?_ <;>
      simp only [Quat.rot00, Quat.rot01, Quat.rot02, Quat.rot10, Quat.rot11, Quat.rot12, Quat.rot20,
        Quat.rot21, Quat.rot22, Quat.one, entries] <;> norm_num
  change homogeneous_from_rotation (Quat.one : Quat ℝ).to_rotation (DQuat.new_from_rotation (Quat.one : Quat ℝ)).get_translation = _
  rw [h1, h.2.1]
  exact (C74_homogeneous M33.one M33.one V3.zero V3.zero V3.zero).2.2.2.1

omit P in
private theorem one_motion : (DQuat.one : DQuat ℝ).IsMotion :=
  (C61_translation_rotation_partial (Quat.one : Quat ℝ) V3.zero V3.zero).2.2.2.2 (by rw [Quat.toH_one, map_one])

omit P in
private theorem conj_motion {x : DQuat ℝ} (hx : x.IsMotion) : x.conj.IsMotion := by
  have h1 : x.conj.q_real.toH = star x.q_real.toH := Quat.toH_conj _
  have h2 : x.conj.q_dual.toH = star x.q_dual.toH := Quat.toH_conj _
  refine ⟨by rw [h1, Quaternion.normSq_star]; exact hx.norm, ?_⟩
  have := hx.orth
  rw [h1, h2, star_star]
  simp only [Quaternion.re_mul, Quaternion.re_star, Quaternion.imI_star, Quaternion.imJ_star, Quaternion.imK_star] at this ⊢
  linarith

omit P in
private theorem toD_neg' (x : DQuat ℝ) : x.neg.toD = -x.toD :=
  TrivSqZeroExt.ext (by rw [TrivSqZeroExt.fst_neg, DQuat.toD_fst, DQuat.toD_fst]; exact Quat.toH_neg _)
    (by rw [TrivSqZeroExt.snd_neg, DQuat.toD_snd, DQuat.toD_snd]; exact Quat.toH_neg _)

omit P in
theorem DQuat.IsMotion.hom_mul_conj {x : DQuat ℝ} (hx : x.IsMotion) : x.to_homogeneous.toM * x.conj.to_homogeneous.toM = 1 := by
  have h1 := (C62_product_partial x x.conj hx (conj_motion hx) V3.zero).2.2.1
  have h2 : (x.mul x.conj).to_homogeneous = M44.one := by
    rw [← one_hom]
    exact homogeneous_congr (hx.mul_conj.1.trans DQuat.toD_one.symm)
  rw [h2, ← Mat.toM_inj, M44.toM_mul, M44.toM_one] at h1
  exact h1.symm

omit P in
theorem DQuat.IsMotion.neg_hom {x : DQuat ℝ} (hx : x.IsMotion) : x.neg.to_homogeneous = x.to_homogeneous := by
  have n1 : x.neg.q_real.toH = -x.q_real.toH := Quat.toH_neg _
  have n2 : x.neg.q_dual.toH = -x.q_dual.toH := Quat.toH_neg _
  have t : x.neg.get_translation = x.get_translation := by
    rw [← Vec.toH_inj, DQuat.translation_toH, DQuat.translation_toH, n1, n2, star_neg, mul_neg, mul_neg, neg_mul, neg_neg]
  have r : x.neg.q_real.to_rotation = x.q_real.to_rotation := by
    refine (C48_double_cover _ _ (by rw [n1, Quaternion.normSq_neg]; exact hx.norm) hx.norm).2 (Or.inr n1)
  change homogeneous_from_rotation x.neg.q_real.to_rotation x.neg.get_translation = homogeneous_from_rotation x.q_real.to_rotation x.get_translation
  rw [t, r]

theorem DQuat.IsMotion.conj_hom {x : DQuat ℝ} (hx : x.IsMotion) : x.conj.to_homogeneous = homogeneous_inverse x.to_homogeneous := by
  have h1 := hx.hom_mul_conj
  have h3 := (C75_homogeneous_inverse _ (hx.rigid)).2.2.1
  rw [← Mat.toM_inj, M44.toM_mul, M44.toM_one] at h3
  rw [← Mat.toM_inj, ← one_mul x.conj.to_homogeneous.toM, ← h3, mul_assoc, h1, mul_one]

omit P in
private theorem rot_hom (q : Quat ℝ) (hq : normSq q.toH = 1) :
    (DQuat.new_from_rotation q).IsMotion ∧
    (DQuat.new_from_rotation q).to_homogeneous = homogeneous_from_rotation q.to_rotation V3.zero := by
  obtain ⟨-, h1, -, h2⟩ := (C61_translation_rotation_partial q V3.zero V3.zero).2
  refine ⟨h2 hq, ?_⟩
  change homogeneous_from_rotation q.to_rotation (DQuat.new_from_rotation q).get_translation = _
  rw [h1]

/-- Every program that makes rigid motions from valid arguments and combines them runs without a panic, with dual quaternions and with
homogeneous matrices, and both give the same rigid motion. -/
theorem C164_programs (e : Motion) (he : e.Valid) :
    ∃ x H, e.dual = .ok x ∧ e.hom = .ok H ∧ x.to_homogeneous = H ∧ x.IsMotion ∧ IsRigid H := by
  suffices h : ∃ x H, e.dual = .ok x ∧ e.hom = .ok H ∧ x.to_homogeneous = H ∧ x.IsMotion by
    obtain ⟨x, H, h1, h2, h3, h4⟩ := h
    exact ⟨x, H, h1, h2, h3, h4, h3 ▸ h4.rigid⟩
  induction e with
  | one => exact ⟨_, _, rfl, rfl, one_hom, one_motion⟩
  | rotation theta v =>
    have hv : V3.norm2 v ≠ 0 := fun h => he ((V3.norm2_zero v).1 h)
    obtain ⟨u, hu⟩ : ∃ u : Vec 3 ℝ, u = ⟨fun i => v i / V3.norm2 v⟩ := ⟨_, rfl⟩
    have hui (i : Fin 3) : u i = v i / V3.norm2 v := by rw [hu]
    have hn := V3.norm2_sq v
    have hu1 : u 0 ^ 2 + u 1 ^ 2 + u 2 ^ 2 = 1 := by
      rw [hui, hui, hui, div_pow, div_pow, div_pow, ← add_div, ← add_div, ← hn, div_self (pow_ne_zero _ hv)]
    have hl : IsLine u V3.zero := ⟨hu1, by simp only [V3.zero_apply]; ring⟩
    obtain ⟨q, hq⟩ : ∃ q : Quat ℝ, q = ⟨Real.cos (theta / 2), ⟨fun i => v i / V3.norm2 v * Real.sin (theta / 2)⟩, true⟩ := ⟨_, rfl⟩
    obtain ⟨c1, c2, -, -⟩ := screw_comp u V3.zero theta 0
    have hc : (DQuat.new_from_screw_parameters u V3.zero theta 0).q_real.toH = q.toH := by
      rw [Quat.toH_inj, hq]
      refine ⟨c1, Vec.ext (funext fun i => ?_)⟩
      rw [c2 i, hui]
    have hr := (C67_screw u V3.zero hl theta 0 0).2.1
    rw [Quat.to_rotation_congr hc] at hr
    have h1 : normSq q.toH = 1 := by rw [← hc]; exact (screw_isMotion hl theta 0).norm
    refine ⟨DQuat.new_from_rotation q, homogeneous_from_rotation (rotation_from_axis_angle u theta) V3.zero, ?_, ?_, ?_, (rot_hom q h1).1⟩
    · change (Quat.rotation theta v >>= fun q => pure (DQuat.new_from_rotation q)) = _
      rw [Quat.rotation_eq, if_neg hv, ← hq]
      rfl
    · change (V3.normalize v >>= fun r => expectOk "zero" r >>= fun u => pure (homogeneous_from_rotation (rotation_from_axis_angle u theta) V3.zero)) = _
      rw [V3.normalize, normalizeGen_eq, if_neg (by rw [rord_beq]; simpa using hv), ← hu]
      rfl
    · rw [(rot_hom q h1).2, hr]
  | euler yaw pitch roll =>
    obtain ⟨h1, h2, -⟩ := C53_from_euler_angles yaw pitch roll
    refine ⟨_, _, rfl, rfl, ?_, (rot_hom _ h1).1⟩
    rw [(rot_hom _ h1).2, h2]
    rfl
  | matrix R =>
    obtain ⟨h1, h2, -⟩ := C63_rotation_matrix R he V3.zero
    refine ⟨_, _, rfl, rfl, ?_, h1⟩
    change homogeneous_from_rotation (DQuat.new_from_rotation_matrix R).to_rotation_translation.1
      (DQuat.new_from_rotation_matrix R).to_rotation_translation.2 = _
    rw [h2]
  | translation t =>
    obtain ⟨h1, h2, h3, -⟩ := (C61_translation_rotation_partial (Quat.one : Quat ℝ) t V3.zero).1
    refine ⟨_, _, rfl, rfl, ?_, h1⟩
    have hr : (DQuat.new_from_translation t).q_real.to_rotation = (DQuat.one : DQuat ℝ).q_real.to_rotation := rfl
    change homogeneous_from_rotation (DQuat.new_from_translation t).q_real.to_rotation (DQuat.new_from_translation t).get_translation = _
    rw [h3, hr]
    have h4 : (DQuat.one : DQuat ℝ).q_real.to_rotation = M33.one := by
      have := congrArg (fun H => (get_parts_raw H).1) one_hom
      exact this.trans (Mat.ext3 rfl rfl rfl rfl rfl rfl rfl rfl rfl)
    rw [h4]
    exact Mat.ext4 rfl rfl rfl rfl rfl rfl rfl rfl rfl rfl rfl rfl rfl rfl rfl rfl
  | rotTrans q t =>
    obtain ⟨x, h1, -, -, -, h2, -, -, -, -, h3, -⟩ := C61_rot_trans_partial q he t V3.zero
    exact ⟨x, _, h1, rfl, h3, h2⟩
  | homogeneous H =>
    obtain ⟨x, h1, h2, h3, -⟩ := C63_homogeneous H he
    exact ⟨x, _, h1, rfl, h2, h3⟩
  | screw l m theta d =>
    exact ⟨_, _, rfl, (C144_screw l m he.1 theta d).2.1 he.2, rfl, screw_isMotion he.1 theta d⟩
  | mul a b iha ihb =>
    obtain ⟨x, H, h1, h2, h3, h4⟩ := iha he.1
    obtain ⟨y, G, k1, k2, k3, k4⟩ := ihb he.2
    refine ⟨x.mul y, M44.mul H G, ?_, ?_, ?_, h4.mul k4⟩
    · rw [Motion.dual, h1, k1]; rfl
    · rw [Motion.hom, h2, k2]; rfl
    · rw [(C62_product_partial x y h4 k4 V3.zero).2.2.1, h3, k3]
  | inverse a ih =>
    obtain ⟨x, H, h1, h2, h3, h4⟩ := ih he
    obtain ⟨y, k1, k2, -⟩ := motion_inverse x h4
    refine ⟨y, homogeneous_inverse H, ?_, ?_, ?_, (conj_motion h4).congr k2.symm⟩
    · rw [Motion.dual, h1]; exact k1
    · have := (C75_homogeneous_inverse H (h3 ▸ h4.rigid)).2.2.2
      rw [Motion.hom, h2]
      change (M44.inverse H >>= fun r => unwrapSome r) = _
      rw [this]
      rfl
    · rw [homogeneous_congr k2, h4.conj_hom, h3]
  | conj a ih =>
    obtain ⟨x, H, h1, h2, h3, h4⟩ := ih he
    refine ⟨x.conj, homogeneous_inverse H, ?_, ?_, ?_, conj_motion h4⟩
    · rw [Motion.dual, h1]; rfl
    · rw [Motion.hom, h2]; rfl
    · rw [h4.conj_hom, h3]
  | neg a ih =>
    obtain ⟨x, H, h1, h2, h3, h4⟩ := ih he
    have n1 : x.neg.q_real.toH = -x.q_real.toH := Quat.toH_neg _
    have n2 : x.neg.q_dual.toH = -x.q_dual.toH := Quat.toH_neg _
    refine ⟨x.neg, H, ?_, h2, ?_, ⟨by rw [n1, Quaternion.normSq_neg]; exact h4.norm, by rw [n1, n2, star_neg, neg_mul_neg]; exact h4.orth⟩⟩
    · rw [Motion.dual, h1]; rfl
    · rw [← h3, h4.neg_hom]
  | normalize a ih =>
    obtain ⟨x, H, h1, h2, h3, h4⟩ := ih he
    have : ∃ y, x.normalize = some y ∧ y.toD = x.toD := by
      by_cases hf : x.normalized = true
      · exact ⟨x, C65_flagged x hf, rfl⟩
      · obtain ⟨n1, n2⟩ := C65_normalize_partial x (Bool.eq_false_iff.2 hf)
        have hn : ‖x.q_real.toH‖ = 1 := by
          have := Quaternion.normSq_eq_norm_mul_self x.q_real.toH
          rw [h4.norm] at this
          nlinarith [norm_nonneg x.q_real.toH]
        cases hy : x.normalize with
        | none =>
          have := n1.1 hy
          have he1 := P.eps_le
          norm_num at he1
          linarith
        | some y =>
          refine ⟨y, rfl, ?_⟩
          rw [(n2 y hy).2.2.1, hn, inv_one, one_smul]
    obtain ⟨y, k1, k2⟩ := this
    refine ⟨y, H, ?_, h2, by rw [homogeneous_congr k2, h3], h4.congr k2.symm⟩
    rw [Motion.dual, h1]
    change unwrapSome x.normalize = _
    rw [k1]
    rfl
  | convert a ih =>
    obtain ⟨x, H, h1, h2, h3, h4⟩ := ih he
    obtain ⟨y, k1, k2, k3, -⟩ := C63_homogeneous x.to_homogeneous (h4.rigid)
    exact ⟨y, H, by rw [Motion.dual, h1]; exact k1, h2, k2.trans h3, k3⟩

/-- Two programs compute the same homogeneous matrix exactly if they compute the same dual quaternion up to sign. -/
theorem C164_same (e e' : Motion) (he : e.Valid) (he' : e'.Valid) :
    ∃ x x', e.dual = .ok x ∧ e'.dual = .ok x' ∧ (e.hom = e'.hom ↔ x.toD = x'.toD ∨ x.toD = -x'.toD) := by
  obtain ⟨x, H, h1, h2, h3, h4, -⟩ := C164_programs e he
  obtain ⟨y, G, k1, k2, k3, k4, -⟩ := C164_programs e' he'
  have dual {x : DQuat ℝ} (hx : x.IsMotion) : 2 * x.q_dual.toH = x.get_translation.toH * x.q_real.toH := by
    have e1 : (2 * x.q_dual.toH * star x.q_real.toH).re = 0 := by
      have := hx.orth
      rw [two_mul, add_mul, Quaternion.re_add]
      simp only [Quaternion.re_mul, Quaternion.re_star, Quaternion.imI_star, Quaternion.imJ_star, Quaternion.imK_star] at this ⊢
      linarith
    have e2 : (2 * x.q_dual.toH * star x.q_real.toH).im = 2 * x.q_dual.toH * star x.q_real.toH := by
      ext
      exacts [e1.symm, rfl, rfl, rfl]
    rw [DQuat.translation_toH, e2, mul_assoc, star_mul_self_unit hx.norm, mul_one]
  refine ⟨x, y, h1, k1, ?_⟩
  rw [h2, k2]
  constructor
  · intro h
    have hHG : x.to_homogeneous = y.to_homogeneous := by rw [h3, k3]; exact Except.ok.inj h
    have hp := congrArg get_parts_raw hHG
    have p (z : DQuat ℝ) : get_parts_raw z.to_homogeneous = (z.q_real.to_rotation, z.get_translation) :=
      (C74_homogeneous z.q_real.to_rotation z.q_real.to_rotation z.get_translation z.get_translation V3.zero).1
    rw [p, p] at hp
    have ht : x.get_translation = y.get_translation := congrArg Prod.snd hp
    have two (z w : ℍ[ℝ]) (h : 2 * z = 2 * w) : z = w := by
      have h5 : z + z = w + w := by rw [← two_mul, ← two_mul]; exact h
      have e : ∀ a b : ℝ, a + a = b + b → a = b := fun a b h => by linarith
      ext
      exacts [e _ _ (congrArg (fun q : ℍ[ℝ] => q.re) h5), e _ _ (congrArg (fun q : ℍ[ℝ] => q.imI) h5),
        e _ _ (congrArg (fun q : ℍ[ℝ] => q.imJ) h5), e _ _ (congrArg (fun q : ℍ[ℝ] => q.imK) h5)]
    rcases (C48_double_cover _ _ h4.norm k4.norm).1 (congrArg Prod.fst hp) with hr | hr
    · left
      rw [DQuat.toD_inj]
      exact ⟨hr, two _ _ (by rw [dual h4, dual k4, ht, hr])⟩
    · right
      have : x.toD = y.neg.toD := by
        rw [DQuat.toD_inj]
        have n1 : y.neg.q_real.toH = -y.q_real.toH := Quat.toH_neg _
        have n2 : y.neg.q_dual.toH = -y.q_dual.toH := Quat.toH_neg _
        exact ⟨by rw [n1, hr], two _ _ (by rw [n2, dual h4, mul_neg, dual k4, ht, hr, mul_neg])⟩
      rw [this, toD_neg']
  · rintro (h | h)
    · rw [← h3, ← k3, homogeneous_congr h]
    · obtain ⟨z, K, z1, z2, z3, -⟩ := C164_programs (.neg e') he'
      have e1 : z = y.neg := by
        rw [Motion.dual, k1] at z1
        exact (Except.ok.inj z1).symm
      have e2 : K = G := by
        rw [Motion.hom, k2] at z2
        exact (Except.ok.inj z2).symm
      rw [← h3, ← e2, ← z3, e1, homogeneous_congr (h.trans (toD_neg' y).symm)]

/-- A program: a screw motion, after a rotation about (1, 2, 2), undone, converted and composed with a translation. -/
example : (Motion.mul (.convert (.inverse (.mul (.screw V3.z_axis V3.x_axis 1 2) (.rotation 3 ⟨![1, 2, 2]⟩)))) (.translation ⟨![4, 5, 6]⟩)).Valid := by
  have he1 := P.eps_le
  norm_num at he1
  refine ⟨⟨⟨⟨?_, ?_⟩, by linarith⟩, fun h => ?_⟩, trivial⟩
  · change (0 : ℝ) ^ 2 + 0 ^ 2 + 1 ^ 2 = 1; norm_num
  · change (0 : ℝ) * 1 + 0 * 0 + 1 * 0 = 0; norm_num
  · have := congrArg (fun v : Vec 3 ℝ => v 0) h
    change (1 : ℝ) = 0 at this
    norm_num at this

end

end StaticMath

import Verif.Model.Examples
import Verif.Props.DualScrew
import Verif.Props.Euler
import Verif.Props.Inverse
import Verif.Props.Qr
import Verif.Props.Views
import Verif.Checked.Int

/-!
# C123: the programs under `examples/`
-/

namespace StaticMath

open Matrix Quaternion Examples

section
variable [P : RealParams]

/-! ### `quaternions.rs` -/

/-- Four turns about a unit axis are one turn by four times the angle; four right angles change nothing. -/
theorem C123_rotate_four (u x : Vec 3 ℝ) (hu : V3.norm2 u = 1) (a : ℝ) (ha : P.eps ≤ a) :
    rotate_four u a x = M33.mulVec (rotation_from_axis_angle u (4 * a)) x ∧
      (a = Real.pi / 2 → rotate_four u a x = x) := by
  have ha0 : 0 < a := lt_of_lt_of_le P.eps_pos ha
  have hn : V3.norm2 (V3.smul u a) = a := by
    have h1 := V3.norm2_sq (V3.smul u a)
    have h2 := V3.norm2_sq u
    rw [V3.smul_apply, V3.smul_apply, V3.smul_apply] at h1
    rw [hu] at h2
    have h3 : V3.norm2 (V3.smul u a) ^ 2 = a ^ 2 := by rw [h1]; linear_combination -a ^ 2 * h2
    exact (pow_left_inj₀ (V3.norm2_nonneg _) ha0.le two_ne_zero).1 h3
  let v := V3.smul u a
  have e1 := (C51_norm_encoded v).1 (by rw [hn]; exact ha)
  rw [hn] at e1
  let q := Quat.rotation_norm_encoded v
  have e1 : Quat.rotation a v = .ok q := e1
  obtain ⟨-, -, -, p2, q2, ep2, e2, m2⟩ := (C51_rotation a a v).2 q e1
  obtain rfl : q = p2 := Except.ok.inj (e1.symm.trans ep2)
  obtain ⟨-, -, -, p3, q3, ep3, e3, m3⟩ := (C51_rotation (a + a) a v).2 q2 e2
  obtain rfl : q = p3 := Except.ok.inj (e1.symm.trans ep3)
  obtain ⟨-, -, -, p4, q4, ep4, e4, m4⟩ := (C51_rotation (a + a + a) a v).2 q3 e3
  obtain rfl : q = p4 := Except.ok.inj (e1.symm.trans ep4)
  obtain ⟨u4, -, r4, -⟩ := (C51_rotation (a + a + a + a) a v).2 q4 e4
  have hq : (((q.mul q).mul q).mul q).toH = q4.toH := by
    rw [← m4, Quat.toH_mul, Quat.toH_mul q3, ← m3, Quat.toH_mul, Quat.toH_mul q2, ← m2]
  have hu4 : normSq (((q.mul q).mul q).mul q).toH = 1 := by rw [hq]; exact u4
  have key : rotate_four u a x = M33.mulVec (rotation_from_axis_angle u (4 * a)) x := by
    have : rotate_four u a x = (((q.mul q).mul q).mul q).mulVec x := rfl
    rw [this, (C47_mulVec _ _ x x hu4 hu4).2.2.2.2.2, Quat.to_rotation_congr hq,
      r4 u fun i => by rw [hn]; exact (V3.smul_apply u a i).trans (mul_comm _ _)]
    congr 2
    ring
  refine ⟨key, fun h => ?_⟩
  rw [key, h, show 4 * (Real.pi / 2) = 2 * Real.pi by ring]
  refine Vec.ext3 ?_ ?_ ?_ <;>
    simp only [rotation_from_axis_angle, entries, rfloat_sin, rfloat_cos, Real.sin_two_pi, Real.cos_two_pi] <;>
    ring

/-- The data of the example. -/
example : V3.norm2 (V3.z_axis : Vec 3 ℝ) = 1 ∧ P.eps ≤ Real.pi / 2 := by
  constructor
  · have h := V3.norm2_sq (V3.z_axis : Vec 3 ℝ)
    have h' : V3.norm2 (V3.z_axis : Vec 3 ℝ) ^ 2 = 1 ^ 2 := by
      rw [h]; change (0 : ℝ) ^ 2 + 0 ^ 2 + 1 ^ 2 = 1 ^ 2; norm_num
    exact (pow_left_inj₀ (V3.norm2_nonneg _) zero_le_one two_ne_zero).1 h'
  · have := P.eps_le
    have := Real.pi_gt_three
    norm_num at *
    linarith

/-- "this would have to give the same value" -/
theorem C123_euler_again (y p r : ℝ) (hy : -Real.pi < y) (hy' : y ≤ Real.pi)
    (hp : |p| + 4 * P.eps ≤ Real.pi / 2) (hr : -Real.pi < r) (hr' : r ≤ Real.pi) :
    (euler_again y p r).2 = (y, p, r) :=
  (C118_euler_angles y p r hy hy' hp hr hr').2

/-- The data of the example. -/
example : -Real.pi < (0.1 : ℝ) ∧ (0.1 : ℝ) ≤ Real.pi ∧ |(0.2 : ℝ)| + 4 * P.eps ≤ Real.pi / 2 ∧
    -Real.pi < (0.3 : ℝ) ∧ (0.3 : ℝ) ≤ Real.pi := by
  have h1 := Real.pi_gt_three
  have h2 := P.eps_le
  rw [abs_of_pos (by norm_num)]
  norm_num at h2 ⊢
  refine ⟨?_, ?_, ?_, ?_, ?_⟩ <;> linarith

/-! ### `dual_quaternion_screw_parameters.rs` -/

/-- A turn about a unit axis through the origin followed by a shift along that axis: the screw parameters
are the axis, no moment, the angle and the shift. -/
theorem C123_screw_parameters (u : Vec 3 ℝ) (hu : V3.norm2 u = 1) (a d : ℝ) (ha : P.eps ≤ a)
    (ha' : a < 2 * Real.pi) :
    screw_parameters u a (V3.smul u d) = .ok (u, V3.zero, a, d) := by
  have ha0 : 0 < a := lt_of_lt_of_le P.eps_pos ha
  have h2 := V3.norm2_sq u
  rw [hu] at h2
  have hline : IsLine u (V3.zero : Vec 3 ℝ) :=
    ⟨by rw [← h2]; norm_num, by change u 0 * 0 + u 1 * 0 + u 2 * 0 = 0; ring⟩
  have hn : V3.norm2 (V3.smul u a) = a := by
    have h1 := V3.norm2_sq (V3.smul u a)
    rw [V3.smul_apply, V3.smul_apply, V3.smul_apply] at h1
    have h3 : V3.norm2 (V3.smul u a) ^ 2 = a ^ 2 := by rw [h1]; linear_combination -a ^ 2 * h2
    exact (pow_left_inj₀ (V3.norm2_nonneg _) ha0.le two_ne_zero).1 h3
  let q := Quat.rotation_norm_encoded (V3.smul u a)
  have hq : q = ⟨Real.cos (a / 2), V3.smul (V3.smul u a) (Real.sin (a / 2) / a), true⟩ := by
    simp only [q, Quat.rotation_norm_encoded, hn, nearly_zero_eq, abs_of_pos ha0, not_lt.2 ha, decide_false,
      Bool.not_false, if_true]
    rfl
  have hu1 : normSq q.toH = 1 := (C44_flag_partial q 0 0 0 0 (V3.smul u a)).2.2.2.2.1
  obtain ⟨s1, s2, s3, s4⟩ := screw_comp u V3.zero a d
  unfold screw_parameters
  change (DQuat.new_from_rot_trans q (V3.smul u d) >>= fun x => pure x.get_screw_parameters) = _
  unfold DQuat.new_from_rot_trans
  rw [Quat.normalize_unit q hu1]
  refine congrArg Except.ok (screw_get u V3.zero hline a d ha ha' _ ?_)
  have hqi (i : Fin 3) : q.q i = u i * Real.sin (a / 2) := by
    rw [hq]
    change V3.smul (V3.smul u a) (Real.sin (a / 2) / a) i = _
    rw [V3.smul_apply, V3.smul_apply]
    field_simp
  have hq0 : q.q0 = Real.cos (a / 2) := by rw [hq]
  have hs (i : Fin 3) : V3.smul u d i = u i * d := V3.smul_apply u d i
  rw [DQuat.toD_iff, DQuat.toD_fst, DQuat.toD_snd, Quat.toH_inj, Quat.toH_inj]
  refine ⟨⟨?_, ?_⟩, ?_, ?_⟩
  · rw [s1]; exact hq0
  · refine Vec.ext (funext fun i => ?_)
    rw [s2]; exact hqi i
  · rw [s3]
    simp only [Quat.new, Quat.mul, Quat.smul, V3.dot, Quat.new_imag, entries, hqi, hq0, hs]
    linear_combination (Real.sin (a / 2) * d / 2) * h2
  · refine Vec.ext3 ?_ ?_ ?_ <;> rw [s4] <;>
      simp only [Quat.new, Quat.mul, Quat.smul, V3.dot, Quat.new_imag, entries, hqi, hq0, hs] <;>
      ring

/-- The data of the example: 45 degrees about z, 7 along z. -/
example : screw_parameters V3.z_axis (Real.pi / 4) ⟨![0, 0, 7]⟩ = .ok (V3.z_axis, V3.zero, Real.pi / 4, 7) := by
  have hz : V3.norm2 (V3.z_axis : Vec 3 ℝ) = 1 := by
    have h := V3.norm2_sq (V3.z_axis : Vec 3 ℝ)
    have h' : V3.norm2 (V3.z_axis : Vec 3 ℝ) ^ 2 = 1 ^ 2 := by
      rw [h]; change (0 : ℝ) ^ 2 + 0 ^ 2 + 1 ^ 2 = 1 ^ 2; norm_num
    exact (pow_left_inj₀ (V3.norm2_nonneg _) zero_le_one two_ne_zero).1 h'
  have h1 := Real.pi_gt_three
  have h2 := P.eps_le
  have e : (⟨![0, 0, 7]⟩ : Vec 3 ℝ) = V3.smul V3.z_axis 7 := by
    refine Vec.ext3 ?_ ?_ ?_ <;> rw [V3.smul_apply]
    · change (0 : ℝ) = 0 * 7; norm_num
    · change (0 : ℝ) = 0 * 7; norm_num
    · change (7 : ℝ) = 1 * 7; norm_num
  rw [e]
  exact C123_screw_parameters V3.z_axis hz (Real.pi / 4) 7 (by norm_num at h2; linarith) (by linarith)

/-! ### `dual_quaternion_transform_point.rs` -/

/-- Both ways print the same point (the homogeneous one with a fourth component 0): the point turned by the
rotation. -/
theorem C123_transform_point (y p r : ℝ) (t x : Vec 3 ℝ) :
    ∃ e v, transform_point y p r t x = .ok (e, v) ∧ e = ⟨![v 0, v 1, v 2, 0]⟩ ∧
      v = M33.mulVec (euler_to_rotation y p r none) x := by
  obtain ⟨-, hR, -⟩ := C53_from_euler_angles y p r
  have hrot : IsRot (euler_to_rotation y p r none) := (C73_euler_to_rotation_partial y p r).2.2 none
  let H := homogeneous_from_rotation (euler_to_rotation y p r none) t
  have hH : homogeneous_from_quaternion (Quat.from_euler_angles y p r) t = H := by
    change homogeneous_from_rotation (Quat.from_euler_angles y p r).to_rotation t = H
    rw [hR]
  obtain ⟨z, ez, hz, -, -⟩ := C63_homogeneous H (isRigid_from hrot t)
  have hzr : z.q_real.to_rotation = euler_to_rotation y p r none := by
    have h : homogeneous_from_rotation z.q_real.to_rotation z.get_translation = H := hz
    refine Mat.ext (funext fun i => funext fun j => ?_)
    have := congrArg (fun M : Mat 4 ℝ => M i.castSucc j.castSucc) h
    fin_cases i <;> fin_cases j <;> exact this
  refine ⟨M44.mulVec H ⟨![x 0, x 1, x 2, 0]⟩, z.transform_point x, ?_, ?_, ?_⟩
  · unfold transform_point
    simp only [hH, ez, bind, Except.bind]
    rfl
  · rw [DQuat.transform_point_eq, hzr]
    refine Vec.ext4 ?_ ?_ ?_ ?_ <;> simp [H, homogeneous_from_rotation, M44.mulVec, M33.mulVec]
  · rw [DQuat.transform_point_eq, hzr]

/-! ### `dual_quaternions.rs` -/

/-- The matrix comes back from the dual quaternion; the product of a translation and a rotation is the dual
quaternion built from both; with the rotation taken from the matrix it is the same up to sign, and so the same
motion. -/
theorem C123_dual_quaternions (y p r : ℝ) (t x : Vec 3 ℝ) :
    ∃ o, dual_quaternions y p r t x = .ok o ∧ o.double = o.t ∧
      o.t = homogeneous_from_rotation (euler_to_rotation y p r none) t ∧
      o.combined.toD = o.normal.toD ∧
      (o.combined2.toD = o.normal.toD ∨ o.combined2.toD = -o.normal.toD) ∧
      o.normal.to_homogeneous = homogeneous_from_rotation (euler_to_rotation y p r none) x ∧
      o.combined2.to_homogeneous = homogeneous_from_rotation (euler_to_rotation y p r none) x := by
  obtain ⟨hu, hR, -⟩ := C53_from_euler_angles y p r
  have hrot : IsRot (euler_to_rotation y p r none) := (C73_euler_to_rotation_partial y p r).2.2 none
  let q := Quat.from_euler_angles y p r
  let R := euler_to_rotation y p r none
  let H := homogeneous_from_rotation R t
  have hH : homogeneous_from_quaternion q t = H := by
    change homogeneous_from_rotation q.to_rotation t = H
    rw [hR]
  obtain ⟨z, ez, hz, -, -⟩ := C63_homogeneous H (isRigid_from hrot t)
  obtain ⟨n, en, -, -, -, -, -, -, -, -, hn, -⟩ := C61_rot_trans_partial q hu x V3.zero
  obtain ⟨f1, f2⟩ := C49_from_rotation R hrot
  have hnd : ((DQuat.new_from_translation x).mul (DQuat.new_from_rotation q)).toD = n.toD := by
    have en' : n = ⟨⟨q.q0, q.q, true⟩, ((Quat.new_imag x).smul (1 / (1 + 1))).mul ⟨q.q0, q.q, true⟩, true⟩ := by
      unfold DQuat.new_from_rot_trans at en
      rw [Quat.normalize_unit q hu] at en
      exact (Except.ok.inj en).symm
    rw [en', DQuat.toD_iff, DQuat.toD_fst, DQuat.toD_snd, Quat.toH_inj, Quat.toH_inj]
    refine ⟨⟨?_, ?_⟩, ?_, ?_⟩
    · simp [DQuat.mul, DQuat.new_from_translation, DQuat.new_from_rotation, Quat.mul, Quat.one, Quat.new,
        DQuat.new, V3.zero, V3.dot, entries]
    · refine Vec.ext3 ?_ ?_ ?_ <;>
      simp [DQuat.mul, DQuat.new_from_translation, DQuat.new_from_rotation, Quat.mul, Quat.one, Quat.new,
        DQuat.new, V3.zero, V3.dot, entries]
    · simp [DQuat.mul, DQuat.new_from_translation, DQuat.new_from_rotation, Quat.mul, Quat.one, Quat.new,
        DQuat.new, V3.zero, V3.dot, Quat.add, Quat.smul, Quat.new_imag, Quat.zero, entries]
      ring
    · refine Vec.ext3 ?_ ?_ ?_ <;>
      simp [DQuat.mul, DQuat.new_from_translation, DQuat.new_from_rotation, Quat.mul, Quat.one, Quat.new,
        DQuat.new, V3.zero, V3.dot, Quat.add, Quat.smul, Quat.new_imag, Quat.zero, entries] <;>
      ring
  have hneg (w : Quat ℝ) : (DQuat.new_from_rotation w).toD = TrivSqZeroExt.inl w.toH := by
    rw [DQuat.toD]
    change TrivSqZeroExt.inl w.toH + TrivSqZeroExt.inr (Quat.zero : Quat ℝ).toH = _
    rw [Quat.toH_zero, TrivSqZeroExt.inr_zero, add_zero]
  have hsame : (Quat.from_rotation R).toH = q.toH ∨ (Quat.from_rotation R).toH = -q.toH :=
    (C48_double_cover _ _ f1 hu).1 (f2.trans hR.symm)
  have hq2 : ((DQuat.new_from_translation x).mul (DQuat.new_from_rotation_matrix R)).toD = n.toD ∨
      ((DQuat.new_from_translation x).mul (DQuat.new_from_rotation_matrix R)).toD = -n.toD := by
    have e : DQuat.new_from_rotation_matrix R = DQuat.new_from_rotation (Quat.from_rotation R) := rfl
    rw [e, ← hnd, DQuat.toD_mul, DQuat.toD_mul, hneg, hneg]
    rcases hsame with h | h
    · left; rw [h]
    · right; rw [h, TrivSqZeroExt.inl_neg, mul_neg]
  have hnh : n.to_homogeneous = homogeneous_from_rotation R x := by rw [hn, hR]
  have ez' : DQuat.new_from_homogeneous (homogeneous_from_quaternion (Quat.from_euler_angles y p r) t) = .ok z := by
    rw [← ez]; exact congrArg _ hH
  have en' : DQuat.new_from_rot_trans (Quat.from_euler_angles y p r) x = .ok n := en
  refine ⟨⟨homogeneous_from_quaternion q t, z.to_homogeneous, n, (DQuat.new_from_translation x).mul (DQuat.new_from_rotation q),
    (DQuat.new_from_translation x).mul (DQuat.new_from_rotation_matrix R)⟩, ?_, hz.trans hH.symm, hH, hnd, hq2, hnh, ?_⟩
  · unfold dual_quaternions
    simp only [ez', en', bind, Except.bind]
    rfl
  · have m1 := (C61_translation_rotation_partial q x V3.zero).1
    obtain ⟨m2, m3, -⟩ := C63_rotation_matrix R hrot V3.zero
    change ((DQuat.new_from_translation x).mul (DQuat.new_from_rotation_matrix R)).to_homogeneous = _
    rw [(C62_product_partial _ _ m1.1 m2 V3.zero).2.2.1]
    have h1 : (DQuat.new_from_translation x).to_homogeneous = homogeneous_from_rotation M33.one x := by
      change homogeneous_from_rotation (DQuat.new_from_translation x).q_real.to_rotation
        (DQuat.new_from_translation x).get_translation = _
      rw [m1.2.2.1, Quat.to_rotation_congr (q := Quat.one) (m1.2.1.trans Quat.toH_one.symm)]
      congr 1
      refine Mat.ext3 ?_ ?_ ?_ ?_ ?_ ?_ ?_ ?_ ?_ <;>
        simp only [Quat.rot00, Quat.rot01, Quat.rot02, Quat.rot10, Quat.rot11, Quat.rot12, Quat.rot20,
          Quat.rot21, Quat.rot22, Quat.one, entries] <;> norm_num
    have h2 : (DQuat.new_from_rotation_matrix R).to_homogeneous = homogeneous_from_rotation R V3.zero := by
      have h : (DQuat.new_from_rotation_matrix R).q_real.to_rotation = R ∧
        (DQuat.new_from_rotation_matrix R).get_translation = V3.zero := Prod.mk.inj m3
      change homogeneous_from_rotation (DQuat.new_from_rotation_matrix R).q_real.to_rotation
        (DQuat.new_from_rotation_matrix R).get_translation = _
      rw [h.1, h.2]
    rw [h1, h2, (C74_homogeneous M33.one R x V3.zero V3.zero).2.1]
    congr 1
    · rw [← Mat.toM_inj, M33.toM_mul, M33.toM_one, one_mul]
    · refine Vec.ext3 ?_ ?_ ?_ <;> simp only [entries, V3.zero] <;> simp

/-! ### `inverse.rs`, `solve_linear_system.rs` -/

/-- If the determinant is not nearly zero, the printed check is the identity. -/
theorem C123_inverse (A : Mat 6 ℝ) (h : P.eps ≤ |A.toM.det|) :
    ∃ B, Examples.inverse A = .ok (some (B, M66.one)) ∧ M66.mul A B = M66.one := by
  obtain ⟨B, hB⟩ := C10_inverse_M66_partial A h
  obtain ⟨h1, h2⟩ := C08_inverse_M66 A B hB
  refine ⟨B, ?_, h1⟩
  unfold Examples.inverse
  rw [hB]
  exact congrArg (fun M => Except.ok (some (B, M))) h2

/-- If the determinant is not nearly zero, the printed verification is the right-hand side, and the printed
solution is the only one. -/
theorem C123_solve (A : Mat 6 ℝ) (b : Vec 6 ℝ) (h : P.eps ≤ |A.toM.det|) :
    ∃ x, solve_linear_system A b = .ok (some (x, b)) ∧ ∀ y, M66.mulVec A y = b ↔ y = x := by
  obtain ⟨B, hB⟩ := C10_inverse_M66_partial A h
  obtain ⟨h1, h2⟩ := C11_solve_M66 A B hB b
  refine ⟨M66.mulVec B b, ?_, fun y => ⟨h2 y, fun e => by rw [e]; exact h1⟩⟩
  unfold solve_linear_system
  rw [hB]
  exact congrArg (fun w => Except.ok (some (M66.mulVec B b, w))) h1

/-- The matrix written in both programs (and in `for_each_example.rs`, `qr_example.rs`). -/
private def m66z : Mat 6 ℤ := ⟨![![1, 1, 3, 4, 9, 3], ![10, 10, 1, 2, 2, 5], ![2, 9, 6, 10, 10, 9],
  ![10, 9, 9, 7, 3, 6], ![7, 6, 6, 2, 9, 5], ![3, 8, 1, 4, 1, 5]]⟩

omit P in
private theorem det_cast (n : ℕ) (A : Mat n ℤ) :
    (⟨fun i j => (A i j : ℝ)⟩ : Mat n ℝ).toM.det = ((A.toM.det : ℤ) : ℝ) :=
  ((Int.castRingHom ℝ).map_det A.toM).symm

/-- Its determinant is 3272. -/
example : P.eps ≤ |(⟨fun i j => (m66z i j : ℝ)⟩ : Mat 6 ℝ).toM.det| := by
  have h : m66z.toM.det = 3272 := (M66.det_eq m66z).symm.trans (by decide +kernel)
  have := P.eps_le
  rw [det_cast, h]
  norm_num at this ⊢
  linarith

/-! ### `for_each_example.rs` -/

theorem C123_for_each (A : Mat 6 ℝ) :
    ∃ B, for_each_example A = .ok B ∧ ∀ i j, B i j = Real.cos (A i j) + Real.sin (A i j) :=
  (C24_for_each_M66 A (fun x => RFloat.cos x + RFloat.sin x) id).1

/-! ### `nice_square_example.rs` -/

omit P in
/-- The square of a singular 2x2 matrix is the trace times the matrix. -/
theorem C123_nice_square {R : Type} [CommRing R] (m : Mat 2 R) (h : m 0 0 * m 1 1 = m 0 1 * m 1 0) :
    ∀ i j, nice_square m i j = (m 0 0 + m 1 1) * m i j := by
  intro i j
  fin_cases i <;> fin_cases j <;> simp [nice_square, M22.mul]
  · linear_combination -h
  · ring
  · ring
  · linear_combination -h

omit P in
/-- The matrix of the example with `i32` entries: each entry is doubled as a numeral, `3` becomes `33`. -/
theorem C123_nice_square_i32 :
    (nice_square ⟨![![.of .i32 3, .of .i32 4], ![.of .i32 6, .of .i32 8]]⟩ : Mat 2 (CInt .i32))
      = ⟨![![.of .i32 33, .of .i32 44], ![.of .i32 66, .of .i32 88]]⟩ := by
  refine Mat.ext (funext fun i => funext fun j => ?_)
  fin_cases i <;> fin_cases j <;> rfl

/-! ### `qr_example.rs` -/

omit P in
private theorem det_sign {n : ℕ} (Q R A : Matrix (Fin n) (Fin n) ℝ) (h1 : Qᵀ * Q = 1) (h2 : Q * R = A)
    (h3 : ∀ i j, j < i → R i j = 0) (h4 : ∀ i, 0 < R i i) : Q.det = if 0 < A.det then 1 else -1 := by
  have hR : 0 < R.det := by
    rw [Matrix.det_of_isUpperTriangular fun i j h => h3 i j h]
    exact Finset.prod_pos fun i _ => h4 i
  have hQ : Q.det * Q.det = 1 := by
    have := congrArg Matrix.det h1
    rwa [Matrix.det_mul, Matrix.det_transpose, Matrix.det_one] at this
  rw [← h2, Matrix.det_mul]
  rcases mul_self_eq_one_iff.1 hQ with h | h
  · rw [h, one_mul, if_pos hR]
  · rw [h, if_neg (by linarith)]

theorem C123_qr_M22 (A : Mat 2 ℝ) (h : P.eps ≤ |M22.det A|) :
    ∃ Q R, qr_example22 A = .ok (some (Q, R, A, if 0 < M22.det A then 1 else -1)) ∧
      M22.mul (M22.transpose Q) Q = M22.one ∧ ∀ i j, j < i → R i j = 0 := by
  obtain ⟨Q, R, e, h1, h2, h3, h4⟩ := (C32_qr_M22 A).2 h
  refine ⟨Q, R, ?_, h1, h3⟩
  have hd : M22.det Q = if 0 < M22.det A then 1 else -1 := by
    have k1 := h1
    have k2 := h2
    rw [← Mat.toM_inj, M22.toM_mul, M22.toM_transpose, M22.toM_one] at k1
    rw [← Mat.toM_inj, M22.toM_mul] at k2
    rw [M22.det_eq, M22.det_eq]
    exact det_sign Q.toM R.toM A.toM k1 k2 h3 h4
  unfold qr_example22
  rw [e]
  change Except.ok (some (Q, R, M22.mul Q R, M22.det Q)) = _
  rw [h2, hd]

theorem C123_qr_M33 (A : Mat 3 ℝ) (h : P.eps ≤ |M33.det A|) :
    ∃ Q R, qr_example33 A = .ok (some (Q, R, A, if 0 < M33.det A then 1 else -1)) ∧
      M33.mul (M33.transpose Q) Q = M33.one ∧ ∀ i j, j < i → R i j = 0 := by
  obtain ⟨Q, R, e, h1, h2, h3, h4⟩ := (C32_qr_M33 A).2 h
  refine ⟨Q, R, ?_, h1, h3⟩
  have hd : M33.det Q = if 0 < M33.det A then 1 else -1 := by
    have k1 := h1
    have k2 := h2
    rw [← Mat.toM_inj, M33.toM_mul, M33.toM_transpose, M33.toM_one] at k1
    rw [← Mat.toM_inj, M33.toM_mul] at k2
    rw [M33.det_eq, M33.det_eq]
    exact det_sign Q.toM R.toM A.toM k1 k2 h3 h4
  unfold qr_example33
  rw [e]
  change Except.ok (some (Q, R, M33.mul Q R, M33.det Q)) = _
  rw [h2, hd]

theorem C123_qr_M44 (A : Mat 4 ℝ) (h : P.eps ≤ |M44.det A|) :
    ∃ Q R, qr_example44 A = .ok (some (Q, R, A, if 0 < M44.det A then 1 else -1)) ∧
      M44.mul (M44.transpose Q) Q = M44.one ∧ ∀ i j, j < i → R i j = 0 := by
  obtain ⟨Q, R, e, h1, h2, h3, h4⟩ := (C32_qr_M44 A).2 h
  refine ⟨Q, R, ?_, h1, h3⟩
  have hd : M44.det Q = if 0 < M44.det A then 1 else -1 := by
    have k1 := h1
    have k2 := h2
    rw [← Mat.toM_inj, M44.toM_mul, M44.toM_transpose, M44.toM_one] at k1
    rw [← Mat.toM_inj, M44.toM_mul] at k2
    rw [M44.det_eq, M44.det_eq]
    exact det_sign Q.toM R.toM A.toM k1 k2 h3 h4
  unfold qr_example44
  rw [e]
  change Except.ok (some (Q, R, M44.mul Q R, M44.det Q)) = _
  rw [h2, hd]

theorem C123_qr_M55 (A : Mat 5 ℝ) (h : P.eps ≤ |M55.det A|) :
    ∃ Q R, qr_example55 A = .ok (some (Q, R, A, if 0 < M55.det A then 1 else -1)) ∧
      M55.mul (M55.transpose Q) Q = M55.one ∧ ∀ i j, j < i → R i j = 0 := by
  obtain ⟨Q, R, e, h1, h2, h3, h4⟩ := (C32_qr_M55 A).2 h
  refine ⟨Q, R, ?_, h1, h3⟩
  have hd : M55.det Q = if 0 < M55.det A then 1 else -1 := by
    have k1 := h1
    have k2 := h2
    rw [← Mat.toM_inj, M55.toM_mul, M55.toM_transpose, M55.toM_one] at k1
    rw [← Mat.toM_inj, M55.toM_mul] at k2
    rw [M55.det_eq, M55.det_eq]
    exact det_sign Q.toM R.toM A.toM k1 k2 h3 h4
  unfold qr_example55
  rw [e]
  change Except.ok (some (Q, R, M55.mul Q R, M55.det Q)) = _
  rw [h2, hd]

theorem C123_qr_M66 (A : Mat 6 ℝ) (h : P.eps ≤ |M66.det A|) :
    ∃ Q R, qr_example66 A = .ok (some (Q, R, A, if 0 < M66.det A then 1 else -1)) ∧
      M66.mul (M66.transpose Q) Q = M66.one ∧ ∀ i j, j < i → R i j = 0 := by
  obtain ⟨Q, R, e, h1, h2, h3, h4⟩ := (C32_qr_M66 A).2 h
  refine ⟨Q, R, ?_, h1, h3⟩
  have hd : M66.det Q = if 0 < M66.det A then 1 else -1 := by
    have k1 := h1
    have k2 := h2
    rw [← Mat.toM_inj, M66.toM_mul, M66.toM_transpose, M66.toM_one] at k1
    rw [← Mat.toM_inj, M66.toM_mul] at k2
    rw [M66.det_eq, M66.det_eq]
    exact det_sign Q.toM R.toM A.toM k1 k2 h3 h4
  unfold qr_example66
  rw [e]
  change Except.ok (some (Q, R, M66.mul Q R, M66.det Q)) = _
  rw [h2, hd]

/-- The 2x2 and 3x3 matrices of the example: determinants -2 and 150. -/
example : P.eps ≤ |M22.det (⟨![![1, 2], ![3, 4]]⟩ : Mat 2 ℝ)| ∧
    P.eps ≤ |M33.det (⟨![![10, -1, 2], ![3, 3, 1], ![1, 2, 5]]⟩ : Mat 3 ℝ)| := by
  have h := P.eps_le
  have e1 : M22.det (⟨![![1, 2], ![3, 4]]⟩ : Mat 2 ℝ) = -2 := by simp [M22.det]; norm_num
  have e2 : M33.det (⟨![![10, -1, 2], ![3, 3, 1], ![1, 2, 5]]⟩ : Mat 3 ℝ) = 150 := by
    simp [M33.det]; norm_num
  rw [e1, e2, abs_neg]
  norm_num at h ⊢
  constructor <;> linarith

/-- The 4x4 and 5x5 matrices of the example: determinants 120 and -3102. -/
example :
    P.eps ≤ |(⟨fun i j => (((⟨![![0, 1, 2, 3], ![4, 0, 1, 7], ![10, 9, 10, 11], ![12, 13, 14, 15]]⟩ : Mat 4 ℤ) i j
      : ℤ) : ℝ)⟩ : Mat 4 ℝ).toM.det| ∧
    P.eps ≤ |(⟨fun i j => (((⟨![![10, 1, 7, 1, 5], ![2, 4, 8, 3, 2], ![5, 1, 2, 9, 10], ![6, 9, 1, 7, 3],
      ![1, 8, 8, 10, 5]]⟩ : Mat 5 ℤ) i j : ℤ) : ℝ)⟩ : Mat 5 ℝ).toM.det| := by
  have h := P.eps_le
  rw [det_cast, det_cast, Mat.toM, Mat.toM, ← M44.det_eq, ← M55.det_eq]
  rw [show M44.det (⟨![![0, 1, 2, 3], ![4, 0, 1, 7], ![10, 9, 10, 11], ![12, 13, 14, 15]]⟩ : Mat 4 ℤ) = 120 by
    decide +kernel]
  rw [show M55.det (⟨![![10, 1, 7, 1, 5], ![2, 4, 8, 3, 2], ![5, 1, 2, 9, 10], ![6, 9, 1, 7, 3],
      ![1, 8, 8, 10, 5]]⟩ : Mat 5 ℤ) = -3102 by decide +kernel]
  norm_num at h ⊢
  constructor <;> linarith

end

end StaticMath

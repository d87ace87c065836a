import Verif.Props.Lie6
import Verif.Props.DualScrew
import Verif.Props.QuatAnalysis
import Verif.Props.QuatRotation
import Verif.Props.Transform

/-!
# C144: the representations agree

Exponentials, logarithms, powers and interpolation give the same rotation or rigid motion whether
they are computed with quaternions, rotation matrices, dual quaternions or twists.
-/

namespace StaticMath

open NormedSpace Quaternion

/-! ## Helpers -/

private theorem half_rot [RealParams] (x : Quat ℝ) (u : Vec 3 ℝ) (p : ℝ)
    (hl : u 0 ^ 2 + u 1 ^ 2 + u 2 ^ 2 = 1) (h1 : x.q0 = Real.cos p)
    (h2 : ∀ i, x.q i = Real.sin p * u i) :
    x.to_rotation = rotation_from_axis_angle u (2 * p) := by
  have hsc := Real.sin_sq_add_cos_sq p
  have hsin := Real.sin_two_mul p
  have hcos : Real.cos (2 * p) = 1 - 2 * Real.sin p ^ 2 := by rw [Real.cos_two_mul]; linarith
  refine Mat.ext3 ?_ ?_ ?_ ?_ ?_ ?_ ?_ ?_ ?_ <;>
    simp only [Quat.rot00, Quat.rot01, Quat.rot02, Quat.rot10, Quat.rot11, Quat.rot12, Quat.rot20,
      Quat.rot21, Quat.rot22, rotation_from_axis_angle, entries, rfloat_sin, rfloat_cos, hsin, hcos,
      h1, h2] <;>
    generalize Real.sin p = sn at * <;> generalize Real.cos p = c at *
  · linear_combination hsc + sn ^ 2 * hl
  · ring
  · ring
  · ring
  · linear_combination hsc + sn ^ 2 * hl
  · ring
  · ring
  · ring
  · linear_combination hsc + sn ^ 2 * hl

private theorem rot_one (x : Quat ℝ) (h : x.toH = 1 ∨ x.toH = -1) : x.to_rotation = M33.one := by
  have h0 : x.q0 ^ 2 = 1 ∧ x.q 0 = 0 ∧ x.q 1 = 0 ∧ x.q 2 = 0 := by
    rcases h with h | h <;>
    · rw [H_ext_iff] at h
      simp only [Quat.toH_re, Quat.toH_imI, Quat.toH_imJ, Quat.toH_imK] at h
      simp at h
      refine ⟨by rw [h.1]; norm_num, h.2⟩
  obtain ⟨h0, h1, h2, h3⟩ := h0
  refine Mat.ext3 ?_ ?_ ?_ ?_ ?_ ?_ ?_ ?_ ?_ <;>
    simp only [Quat.rot00, Quat.rot01, Quat.rot02, Quat.rot10, Quat.rot11, Quat.rot12, Quat.rot20,
      Quat.rot21, Quat.rot22, entries, h0, h1, h2, h3] <;> ring

private theorem mlog_one [RealParams] : matrix_log (M33.one : Mat 3 ℝ) = M33.zero := by
  have : (M33.trace (M33.one : Mat 3 ℝ) - 1) / (1 + 1) = 1 := by
    simp only [M33.trace, entries]; norm_num
  unfold matrix_log
  simp only [this, rord_le, le_refl, decide_true, if_true]

private theorem skew_smul_toM (u : Vec 3 ℝ) (t : ℝ) :
    (skew_from_vec (V3.smul u t)).toM = t • (skew_from_vec u).toM := by
  rw [← M33.toM_smul, Mat.toM_inj]
  refine Mat.ext3 ?_ ?_ ?_ ?_ ?_ ?_ ?_ ?_ ?_ <;> simp only [entries] <;> ring

private theorem unit_of (w : Vec 3 ℝ) [RealParams] (h : V3.norm2 w ≠ 0) :
    let u : Vec 3 ℝ := ⟨fun i => w i / V3.norm2 w⟩
    u 0 ^ 2 + u 1 ^ 2 + u 2 ^ 2 = 1 ∧ ∀ i, w i = V3.norm2 w * u i := by
  intro u
  have hs := V3.norm2_sq w
  refine ⟨?_, fun i => (mul_div_cancel₀ _ h).symm⟩
  change (w 0 / V3.norm2 w) ^ 2 + (w 1 / V3.norm2 w) ^ 2 + (w 2 / V3.norm2 w) ^ 2 = 1
  rw [div_pow, div_pow, div_pow, ← add_div, ← add_div, ← hs, div_self (pow_ne_zero 2 h)]

/-! ## Rotations -/

/-- The rotation matrix of the quaternion exponential of `w` is the matrix exponential of the cross
product with `2 w`; so is that of `rotation_norm_encoded (2 w)`. -/
theorem C144_exp [P : RealParams] (w : Vec 3 ℝ) (h : w = V3.zero ∨ P.eps < V3.norm2 w) :
    matrix_exponential (skew_from_vec (V3.smul w 2)) = .ok (Quat.new_imag w).exp.to_rotation ∧
    (Quat.new_imag w).exp.to_rotation.toM = exp (skew_from_vec (V3.smul w 2)).toM ∧
    (Quat.rotation_norm_encoded (V3.smul w 2)).toH = (Quat.new_imag w).exp.toH := by
  have he := P.eps_pos
  rcases h with rfl | h
  · have hz : V3.smul (V3.zero : Vec 3 ℝ) 2 = V3.zero := Vec.ext3 (zero_mul _) (zero_mul _) (zero_mul _)
    have hn : V3.norm2 (V3.zero : Vec 3 ℝ) = 0 := (V3.norm2_zero _).2 rfl
    have h1 : (Quat.new_imag (V3.zero : Vec 3 ℝ)).exp.toH = 1 := by
      rw [(C55_exp (Quat.new_imag V3.zero)).1 (Or.inl hn), show (Quat.new_imag (V3.zero : Vec 3 ℝ)).toH = 0 from rfl, exp_zero]
    rw [hz, rot_one _ (Or.inl h1), h1]
    have hs : (skew_from_vec (V3.zero : Vec 3 ℝ)) = M33.zero := by
      refine Mat.ext3 ?_ ?_ ?_ ?_ ?_ ?_ ?_ ?_ ?_ <;> simp [entries]
    have hw : skew_to_vec (M33.zero : Mat 3 ℝ) = V3.zero := Vec.ext3 rfl rfl rfl
    refine ⟨?_, ?_, ?_⟩
    · rw [hs]
      refine (C79_matrix_exponential _ fun i j => ?_).1 ?_
      · fin_cases i <;> fin_cases j <;> simp [entries]
      · change √(0 ^ 2 + 0 ^ 2 + 0 ^ 2) < P.eps
        simpa using he
    · rw [hs, M33.toM_zero, exp_zero, M33.toM_one]
    · unfold Quat.rotation_norm_encoded
      simp only [hn, nearly_zero_eq, abs_zero, he, decide_true, Bool.not_true, Bool.false_eq_true,
        if_false]
      rfl
  · have hpos : 0 < V3.norm2 w := he.trans h
    obtain ⟨hu, hw⟩ := unit_of w hpos.ne'
    generalize (⟨fun i => w i / V3.norm2 w⟩ : Vec 3 ℝ) = u at hu hw
    generalize hN : V3.norm2 w = N at *
    have hw2 : V3.smul w 2 = V3.smul u (2 * N) :=
      Vec.ext (funext fun i => by rw [V3.smul_apply, V3.smul_apply, hw]; ring)
    have e0 : (Quat.new_imag w).exp.q0 = Real.cos N := by
      change Real.exp 0 * Real.cos (V3.norm2 w) = _
      rw [Real.exp_zero, one_mul, hN]
    have e1 (i : Fin 3) : (Quat.new_imag w).exp.q i = Real.sin N * u i := by
      refine (V3.smul_apply _ _ _).trans ?_
      change w i * _ = _
      simp only [Quat.new_imag, Quat.abs_imag, Quat.imag, Quat.real, rord_lt, rfloat_epsilon, hN, h,
        decide_true, if_true, rfloat_exp, Real.exp_zero, rfloat_sin, one_mul, hw]
      field_simp
    have hr := half_rot _ u N hu e0 e1
    refine ⟨?_, ?_, ?_⟩
    · rw [hw2, hr]
      exact mexp_unit u _ (by linarith) hu
    · rw [hr, (C78_rodrigues u hu (2 * N) 0).1, hw2, skew_smul_toM]
    · rw [hw2]
      have hn := norm_unit_smul u (2 * N) (by linarith) hu
      unfold Quat.rotation_norm_encoded
      have hz : ¬ 2 * N < P.eps := by linarith
      simp only [hn, nearly_zero_eq, abs_of_pos (show 0 < 2 * N by linarith), hz, decide_false,
        Bool.not_false, if_true, rfloat_sin, rfloat_cos, rfloat_lit2]
      rw [show 2 * N / 2 = N by ring, H_ext_iff]
      simp only [Quat.toH_re, Quat.toH_imI, Quat.toH_imJ, Quat.toH_imK, e0, e1, V3.smul_apply]
      refine ⟨trivial, ?_, ?_, ?_⟩ <;> field_simp

/-- A unit vector with two components, a rotation by two radians. -/
example [P : RealParams] : P.eps < V3.norm2 (⟨![3 / 5, 4 / 5, 0]⟩ : Vec 3 ℝ) := by
  have := P.eps_le
  rw [V3.norm2_eq_sqrt]
  change P.eps < √((3 / 5) ^ 2 + (4 / 5) ^ 2 + 0 ^ 2)
  norm_num at this ⊢
  linarith

/-- `matrix_log` of the rotation matrix of a unit quaternion with positive real part is the cross
product with twice the imaginary part of its quaternion logarithm. -/
theorem C144_log [P : RealParams] (q : Quat ℝ) (hq : normSq q.toH = 1) (ht : q.Truthful)
    (h0 : 0 < q.q0) (h : V3.norm2 q.imag = 0 ∨ P.eps < V3.norm2 q.imag) :
    q.ln.real = 0 ∧ matrix_log q.to_rotation = skew_from_vec (V3.smul q.ln.imag 2) := by
  have hn1 : ‖q.toH‖ = 1 := by
    have := Quaternion.normSq_eq_norm_mul_self q.toH
    rw [hq] at this
    nlinarith [norm_nonneg q.toH]
  have hne : q.toH ≠ 0 := by intro h; rw [h, norm_zero] at hn1; exact zero_ne_one hn1
  obtain ⟨-, h2, h3, h4⟩ := C56_exp_ln q hne ht (by rwa [hn1, mul_one])
  rw [hn1, Real.log_one] at h3
  refine ⟨h3, ?_⟩
  have hre : q.ln.toH.re = 0 := h3
  have hnorm : ‖q.ln.toH‖ = V3.norm2 q.ln.imag := by
    have a := Quaternion.normSq_eq_norm_mul_self q.ln.toH
    have b := V3.norm2_sq q.ln.imag
    rw [Quaternion.normSq_def'] at a
    have c : ‖q.ln.toH‖ ^ 2 = V3.norm2 q.ln.imag ^ 2 := by
      rw [b, sq, ← a, hre]
      change 0 ^ 2 + q.ln.q 0 ^ 2 + q.ln.q 1 ^ 2 + q.ln.q 2 ^ 2 = q.ln.q 0 ^ 2 + q.ln.q 1 ^ 2 + q.ln.q 2 ^ 2
      ring
    exact (pow_left_inj₀ (norm_nonneg _) (V3.norm2_nonneg _) two_ne_zero).1 c
  rw [Quaternion.exp_of_re_eq_zero _ hre, hnorm] at h2
  have hN0 := V3.norm2_nonneg q.ln.imag
  have hw' : q.ln.imag = q.ln.q := rfl
  by_cases hz : V3.norm2 q.ln.imag = 0
  · have hw := (V3.norm2_zero _).1 hz
    have h1 : q.toH = 1 := by
      rw [← h2, hz]; simp
    rw [rot_one q (Or.inl h1), mlog_one, hw]
    refine Mat.ext3 ?_ ?_ ?_ ?_ ?_ ?_ ?_ ?_ ?_ <;> simp [entries]
  · obtain ⟨hu, hw⟩ := unit_of q.ln.imag hz
    generalize (⟨fun i => q.ln.imag i / V3.norm2 q.ln.imag⟩ : Vec 3 ℝ) = u at hu hw
    generalize hN : V3.norm2 q.ln.imag = N at *
    have hpos : 0 < N := lt_of_le_of_ne hN0 (Ne.symm hz)
    rw [H_ext_iff] at h2
    obtain ⟨c0, c1, c2, c3⟩ := h2
    simp [-Complex.ofReal_cos, -Complex.ofReal_sin] at c0 c1 c2 c3
    have hre' : q.ln.q0 = 0 := h3
    rw [hre', mul_zero, add_zero] at c0
    have e1 (i : Fin 3) : q.q i = Real.sin N * u i := by
      have : q.ln.q i = N * u i := hw i
      have c : Real.sin N / N * q.ln.q i = q.q i := by fin_cases i <;> assumption
      rw [← c, this]; field_simp
    rw [half_rot q u N hu c0.symm e1]
    have hlt : 2 * N < Real.pi := by
      by_contra hge
      have := Real.cos_nonpos_of_pi_div_two_le_of_le (x := N) (by linarith) (by linarith [Real.pi_pos])
      linarith
    rw [(C118_logarithms u u (2 * N) hu (by linarith) hlt).1]
    congr 1
    exact Vec.ext (funext fun i => by rw [V3.smul_apply, V3.smul_apply, hw]; ring)

/-- The unit quaternion `(4/5, (0, 3/5, 0))`. -/
example [P : RealParams] : let q : Quat ℝ := Quat.new_from (4 / 5) 0 (3 / 5) 0
    normSq q.toH = 1 ∧ q.Truthful ∧ 0 < q.q0 ∧ P.eps < V3.norm2 q.imag := by
  have := P.eps_le
  refine ⟨?_, fun h => (nomatch h), ?_, ?_⟩
  · rw [Quaternion.normSq_def']
    change (4 / 5 : ℝ) ^ 2 + 0 ^ 2 + (3 / 5) ^ 2 + 0 ^ 2 = 1
    norm_num
  · change (0 : ℝ) < 4 / 5
    norm_num
  · rw [V3.norm2_eq_sqrt]
    change P.eps < √(0 ^ 2 + (3 / 5) ^ 2 + 0 ^ 2)
    rw [show (0 : ℝ) ^ 2 + (3 / 5) ^ 2 + 0 ^ 2 = (3 / 5) ^ 2 by ring, Real.sqrt_sq (by norm_num)]
    norm_num at this ⊢
    linarith

/-- `slerp` walks the geodesic of the rotation group: at parameter `t` the rotation is the first one
times the exponential of `t` times the `matrix_log` of the rotation from the first to the second. -/
theorem C144_slerp [P : RealParams] (a b : Quat ℝ) (t : ℝ) (ha : normSq a.toH = 1)
    (hb : normSq b.toH = 1) (hd : a.dot b ≠ 0)
    (h : |a.dot b| = 1 ∨ (1 / 1000) ^ 2 ≤ 1 - a.dot b ^ 2) :
    (Quat.slerp a b t).to_rotation.toM = a.to_rotation.toM * exp (t •
      (matrix_log (M33.mul (M33.transpose a.to_rotation) b.to_rotation)).toM) := by
  have hac : normSq a.conj.toH = 1 := by rw [Quat.toH_conj, Quaternion.normSq_star, ha]
  obtain ⟨-, hl, -, -, -⟩ := C119_slerp a b a.conj 0 t ha hb hac h
  have haa : a.toH * star a.toH = 1 := by
    rw [Quaternion.self_mul_star, ha]; rfl
  have haa' : star a.toH * a.toH = 1 := by
    rw [Quaternion.star_mul_self, ha]; rfl
  have hs1 : normSq (Quat.slerp a b t).toH = 1 := (C58_slerp_partial a b t ha hb h).1
  have hcong (x y : Quat ℝ) (e : x.toH = y.toH) : x.to_rotation = y.to_rotation := by
    rw [Quat.toH_inj] at e
    unfold Quat.to_rotation Quat.real Quat.imag
    rw [e.1, e.2]
  -- the rotation from `a` to the interpolated one
  set e := a.conj.mul a with hedef
  set p := a.conj.mul b with hpdef
  have he : e.toH = 1 := by rw [hedef, Quat.toH_mul, Quat.toH_conj, haa']
  have hp1 : normSq p.toH = 1 := by rw [hpdef, Quat.toH_mul, map_mul, hac, hb, one_mul]
  have hp0 : p.q0 = a.dot b := by
    rw [hpdef, Quat.mul_q0, Quat.dot_eq]
    simp only [Quat.conj_q0, Quat.conj_q]; ring
  have hpr : M33.mul (M33.transpose a.to_rotation) b.to_rotation = p.to_rotation := by
    rw [hpdef, (C48_to_rotation a.conj b hb).2.2.1, (C48_to_rotation a a ha).2.2.2]
  have hfull : (Quat.slerp a b t).to_rotation.toM
      = a.to_rotation.toM * (Quat.slerp e p t).to_rotation.toM := by
    have hsl : normSq (Quat.slerp e p t).toH = 1 := by
      rw [hl, map_mul, hac, hs1, one_mul]
    rw [← M33.toM_mul, ← (C48_to_rotation a (Quat.slerp e p t) hsl).2.2.1]
    congr 1
    apply hcong
    rw [Quat.toH_mul, hl, Quat.toH_conj, ← mul_assoc, haa, one_mul]
  rw [hfull, hpr]
  congr 1
  rw [H_ext_iff] at he
  simp only [Quat.toH_re, Quat.toH_imI, Quat.toH_imJ, Quat.toH_imK] at he
  have hedot : e.dot p = a.dot b := by
    rw [Quat.dot_eq, ← hp0, he.1, he.2.1, he.2.2.1, he.2.2.2]
    simp
  have heq (i : Fin 3) : e.q i = 0 := by
    fin_cases i
    · simpa using he.2.1
    · simpa using he.2.2.1
    · simpa using he.2.2.2
  have he0 : e.q0 = 1 := by simpa using he.1
  have hpu := (Quat.unit_iff p).1 hp1
  rcases h with h | h
  · have hpz : p.q 0 ^ 2 + p.q 1 ^ 2 + p.q 2 ^ 2 = 0 := by
      have : p.q0 ^ 2 = 1 := by rw [hp0, ← sq_abs, h, one_pow]
      linarith
    have hpar : Quat.slerp e p t = e := by
      unfold Quat.slerp
      simp only [rord_le, rabs_abs, hedot, h, le_refl, decide_true, if_true]
    have z0 : p.q 0 = 0 := by nlinarith [sq_nonneg (p.q 0), sq_nonneg (p.q 1), sq_nonneg (p.q 2)]
    have z1 : p.q 1 = 0 := by nlinarith [sq_nonneg (p.q 0), sq_nonneg (p.q 1), sq_nonneg (p.q 2)]
    have z2 : p.q 2 = 0 := by nlinarith [sq_nonneg (p.q 0), sq_nonneg (p.q 1), sq_nonneg (p.q 2)]
    have hpp : p.toH = 1 ∨ p.toH = -1 := by
      rcases (abs_eq (zero_le_one (α := ℝ))).1 h with h | h
      · left; rw [H_ext_iff]; simp [z0, z1, z2, hp0, h]
      · right; rw [H_ext_iff]; simp [z0, z1, z2, hp0, h]
    rw [hpar, rot_one p hpp, mlog_one, rot_one e (Or.inl (by rw [H_ext_iff]; simpa using he)),
      M33.toM_one, M33.toM_zero, smul_zero, exp_zero]
  · have hlt : |e.dot p| < 1 := by
      rw [hedot, ← sq_lt_one_iff_abs_lt_one]; norm_num at h; linarith
    have hsq : |e.dot p| * |e.dot p| = a.dot b ^ 2 := by rw [hedot, abs_mul_abs_self, sq]
    have hns : ¬ √(1 - |e.dot p| * |e.dot p|) < 1 / 1000 := by
      rw [hsq]
      exact not_lt.2 (Real.le_sqrt_of_sq_le h)
    obtain ⟨sg, hsg⟩ : ∃ sg : ℝ, sg = if e.dot p < 0 then -1 else 1 := ⟨_, rfl⟩
    obtain ⟨th, hth⟩ : ∃ th, th = Real.arccos |e.dot p| := ⟨_, rfl⟩
    have hS : Real.sin th = √(1 - |e.dot p| * |e.dot p|) := by rw [hth, Real.sin_arccos, sq]
    obtain ⟨m0, m1⟩ := slerp_main e p t hlt hns sg hsg _ th hS hth
    have hcos : Real.cos th = |a.dot b| := by
      rw [hth, hedot, Real.cos_arccos (by linarith [abs_nonneg (a.dot b)]) (by rw [← hedot]; exact hlt.le)]
    have hSpos : 0 < Real.sin th := by
      rw [hS]; exact lt_of_lt_of_le (by norm_num) (not_lt.1 hns)
    have hsgp : sg * p.q0 = Real.cos th := by
      rw [hsg, hp0, hedot, hcos]
      split_ifs with hn
      · rw [abs_of_neg hn]; ring
      · rw [abs_of_nonneg (not_lt.1 hn)]; ring
    have hsg2 : sg ^ 2 = 1 := by rw [hsg]; split_ifs <;> norm_num
    have hthlt : 2 * th < Real.pi := by
      have := Real.arccos_lt_pi_div_two.2 (abs_pos.2 (hedot.trans_ne hd))
      rw [← hth] at this; linarith
    have hthpos : 0 < th := by rw [hth]; exact Real.arccos_pos.2 hlt
    -- the axis
    obtain ⟨u, hu⟩ : ∃ u : Vec 3 ℝ, ∀ i, u i = sg * p.q i / Real.sin th :=
      ⟨⟨fun i => sg * p.q i / Real.sin th⟩, fun _ => rfl⟩
    have hu1 : u 0 ^ 2 + u 1 ^ 2 + u 2 ^ 2 = 1 := by
      have h1 : Real.sin th ^ 2 = p.q 0 ^ 2 + p.q 1 ^ 2 + p.q 2 ^ 2 := by
        have := Real.sin_sq_add_cos_sq th
        rw [← hsgp, mul_pow, hsg2] at this
        linarith
      rw [hu, hu, hu, div_pow, div_pow, div_pow, ← add_div, ← add_div, mul_pow, mul_pow, mul_pow, hsg2,
        one_mul, one_mul, one_mul, ← h1, div_self (pow_ne_zero 2 hSpos.ne')]
    have hrs : (Quat.slerp e p t).to_rotation = rotation_from_axis_angle u (2 * (t * th)) := by
      refine half_rot _ u _ hu1 ?_ fun i => ?_
      · rw [m0, hsgp, he0, sub_mul, one_mul, Real.sin_sub]
        field_simp
        ring
      · rw [m1, heq, hu]; ring
    have hrp : p.to_rotation = rotation_from_axis_angle u (2 * th) := by
      have : p.to_rotation = (p.smul sg).to_rotation := by
        have h2 : sg = 1 ∨ sg = -1 := by rw [hsg]; split_ifs <;> simp
        rcases h2 with h2 | h2 <;>
          refine Mat.ext3 ?_ ?_ ?_ ?_ ?_ ?_ ?_ ?_ ?_ <;>
          simp only [Quat.rot00, Quat.rot01, Quat.rot02, Quat.rot10, Quat.rot11, Quat.rot12, Quat.rot20,
            Quat.rot21, Quat.rot22, Quat.smul, V3.smul_apply, h2] <;> ring
      rw [this]
      refine half_rot _ u _ hu1 ?_ fun i => ?_
      · rw [← hsgp, mul_comm]; rfl
      · rw [hu]
        refine (V3.smul_apply _ _ _).trans ?_
        field_simp
    rw [hrs, hrp, (C118_logarithms u u (2 * th) hu1 (by linarith) hthlt).1, skew_smul_toM, smul_smul,
      (C78_rodrigues u hu1 _ 0).1]
    congr 2
    ring

/-- A quarter of a turn about the third axis against the identity, and a real part that is not zero:
`(4/5, (0, 3/5, 0))` and `-1`. -/
example : let a : Quat ℝ := Quat.new_from (4 / 5) 0 (3 / 5) 0
    let b : Quat ℝ := Quat.new_from (-1) 0 0 0
    normSq a.toH = 1 ∧ normSq b.toH = 1 ∧ a.dot b ≠ 0 ∧ (1 / 1000) ^ 2 ≤ 1 - a.dot b ^ 2 := by
  intro a b
  have hd : a.dot b = -(4 / 5) := by
    rw [Quat.dot_eq]
    change (4 / 5 : ℝ) * (-1) + 0 * 0 + 3 / 5 * 0 + 0 * 0 = _
    norm_num
  rw [hd]
  refine ⟨?_, ?_, by norm_num, by norm_num⟩
  · rw [Quaternion.normSq_def']
    change (4 / 5 : ℝ) ^ 2 + 0 ^ 2 + (3 / 5) ^ 2 + 0 ^ 2 = 1
    norm_num
  · rw [Quaternion.normSq_def']
    change (-1 : ℝ) ^ 2 + 0 ^ 2 + 0 ^ 2 + 0 ^ 2 = 1
    norm_num

/-! ## Rigid motions -/

/-- The twist of a screw: rotation part `theta l`, translation part `theta m + d l`. -/
private def screwTwist (l m : Vec 3 ℝ) (theta d : ℝ) : Mat 4 ℝ :=
  se3_from_parts (skew_from_vec (V3.smul l theta)) ⟨fun i => theta * m i + d * l i⟩

private theorem screw_hom [RealParams] (l m : Vec 3 ℝ) (h : IsLine l m) (theta d : ℝ) :
    (DQuat.new_from_screw_parameters l m theta d).to_homogeneous =
      homogeneous_from_rotation (rotation_from_axis_angle l theta)
        ⟨fun i => d * l i + Real.sin theta * m i + (1 - Real.cos theta) * V3.cross l m i⟩ := by
  have hr := (C67_screw l m h theta d 0).2.1
  have ht : (DQuat.new_from_screw_parameters l m theta d).get_translation
      = ⟨fun i => d * l i + Real.sin theta * m i + (1 - Real.cos theta) * V3.cross l m i⟩ := by
    refine Vec.ext (funext fun i => ?_)
    rw [screw_translation h]
    have e : theta = 2 * (theta / 2) := by ring
    have hsin : Real.sin theta = 2 * Real.sin (theta / 2) * Real.cos (theta / 2) := by
      conv_lhs => rw [e, Real.sin_two_mul]
    have hcos : Real.cos theta = 1 - 2 * Real.sin (theta / 2) ^ 2 := by
      conv_lhs => rw [e, Real.cos_two_mul]
      linarith [Real.sin_sq_add_cos_sq (theta / 2)]
    have hx : V3.cross m l i = -V3.cross l m i := by
      fin_cases i <;> simp only [Fin.zero_eta, Fin.mk_one, Fin.reduceFinMk, V3.cross_0, V3.cross_1, V3.cross_2] <;> ring
    rw [hsin, hcos, hx]
    ring
  change homogeneous_from_rotation (DQuat.new_from_screw_parameters l m theta d).q_real.to_rotation
    (DQuat.new_from_screw_parameters l m theta d).get_translation = _
  rw [hr, ht]

private theorem screw_exp [RealParams] (l m : Vec 3 ℝ) (h : IsLine l m) (theta d : ℝ) :
    (DQuat.new_from_screw_parameters l m theta d).to_homogeneous.toM
      = exp (screwTwist l m theta d).toM := by
  rw [screw_hom l m h]
  obtain ⟨hl, hm⟩ := h
  by_cases h0 : theta = 0
  · have hsq : (screwTwist l m theta d).toM ^ 2 = 0 := by
      rw [sq, ← M44.toM_mul, ← M44.toM_zero, Mat.toM_inj]
      refine Mat.ext4 ?_ ?_ ?_ ?_ ?_ ?_ ?_ ?_ ?_ ?_ ?_ ?_ ?_ ?_ ?_ ?_ <;>
        simp only [screwTwist, entries, h0] <;> ring
    rw [exp_of_sq_zero _ hsq, ← M44.toM_one, ← M44.toM_add, Mat.toM_inj]
    refine Mat.ext4 ?_ ?_ ?_ ?_ ?_ ?_ ?_ ?_ ?_ ?_ ?_ ?_ ?_ ?_ ?_ ?_ <;>
      simp only [screwTwist, rotation_from_axis_angle, entries, h0, rfloat_sin, rfloat_cos, Real.sin_zero, Real.cos_zero] <;> ring
  · rw [screwTwist, exp_se3 l _ theta h0 hl]
    congr 2
    refine Vec.ext3 ?_ ?_ ?_ <;>
      simp only [vmap, entries, rfloat_sin, rfloat_cos] <;>
      generalize Real.sin theta = sn at * <;> generalize Real.cos theta = c at * <;>
      field_simp
    · linear_combination theta * (theta - sn) * m 0 * hl - theta * (theta - sn) * l 0 * hm
    · linear_combination theta * (theta - sn) * m 1 * hl - theta * (theta - sn) * l 1 * hm
    · linear_combination theta * (theta - sn) * m 2 * hl - theta * (theta - sn) * l 2 * hm

private theorem twist_eq (l m : Vec 3 ℝ) (theta d : ℝ) :
    twist_to_se3 ⟨![theta * l 0, theta * l 1, theta * l 2, theta * m 0 + d * l 0,
      theta * m 1 + d * l 1, theta * m 2 + d * l 2]⟩ = screwTwist l m theta d := by
  unfold screwTwist
  refine Mat.ext4 ?_ ?_ ?_ ?_ ?_ ?_ ?_ ?_ ?_ ?_ ?_ ?_ ?_ ?_ ?_ ?_ <;> simp [entries] <;> ring

private theorem smul_twist (l m : Vec 3 ℝ) (theta d e : ℝ) :
    e • (screwTwist l m theta d).toM = (screwTwist l m (e * theta) (e * d)).toM := by
  rw [← M44.toM_smul, Mat.toM_inj]
  unfold screwTwist
  refine Mat.ext4 ?_ ?_ ?_ ?_ ?_ ?_ ?_ ?_ ?_ ?_ ?_ ?_ ?_ ?_ ?_ ?_ <;> simp only [entries] <;> ring

private theorem mexp6_screw [P : RealParams] (l m : Vec 3 ℝ) (h : IsLine l m) (theta d : ℝ)
    (h1 : P.eps ≤ theta) : matrix_exponential6 (screwTwist l m theta d)
      = .ok (DQuat.new_from_screw_parameters l m theta d).to_homogeneous := by
  have hn : √(screwTwist l m theta d 2 1 ^ 2 + screwTwist l m theta d 0 2 ^ 2
      + screwTwist l m theta d 1 0 ^ 2) = theta := by
    have := norm_unit_smul l theta (P.eps_pos.le.trans h1) h.unit
    rw [V3.norm2_eq_sqrt] at this
    exact this
  have hse : IsSe3 (screwTwist l m theta d) := by
    refine ⟨fun i j => ?_, fun j => ?_⟩
    · fin_cases i <;> fin_cases j <;> simp [screwTwist, entries]
    · fin_cases j <;> rfl
  obtain ⟨E, hE, -, h2⟩ := (C81_matrix_exponential6_partial (screwTwist l m theta d)).2.2 hse
    (by rw [hn]; exact h1)
  rw [← screw_exp l m h, Mat.toM_inj] at h2
  rw [hE, h2]

private theorem log6_screw [P : RealParams] (l m : Vec 3 ℝ) (h : IsLine l m) (theta d : ℝ)
    (h1 : P.eps ≤ theta) (h2 : theta < Real.pi) :
    matrix_log6 (DQuat.new_from_screw_parameters l m theta d).to_homogeneous
      = screwTwist l m theta d := by
  obtain ⟨H, hH, hl⟩ := ((C118_logarithms l ⟨fun i => theta * m i + d * l i⟩ theta h.unit
    (P.eps_pos.trans_le h1) h2).2 h1).2
  have := mexp6_screw l m h theta d h1
  unfold screwTwist at this ⊢
  rw [hH] at this
  rw [← Except.ok.inj this, hl]

/-- The matrix of the dual quaternion of a screw, that is of the line with direction `l` and moment
`m`, an angle and a displacement along the line, is the exponential of the twist
`(theta l, theta m + d l)`, for every angle and displacement. The code's `matrix_exponential6` gives
the same matrix from EPSILON on, and `matrix_log6` brings the twist back below a half turn. -/
theorem C144_screw [P : RealParams] (l m : Vec 3 ℝ) (h : IsLine l m) (theta d : ℝ) :
    let x := (DQuat.new_from_screw_parameters l m theta d).to_homogeneous
    let X : Mat 4 ℝ := twist_to_se3 ⟨![theta * l 0, theta * l 1, theta * l 2, theta * m 0 + d * l 0,
      theta * m 1 + d * l 1, theta * m 2 + d * l 2]⟩
    x.toM = exp X.toM ∧ (P.eps ≤ theta → matrix_exponential6 X = .ok x) ∧
    (P.eps ≤ theta → theta < Real.pi → matrix_log6 x = X) := by
  rw [twist_eq]
  exact ⟨screw_exp l m h theta d, mexp6_screw l m h theta d, log6_screw l m h theta d⟩

/-- The axis `screw_to_axis(q, s, h)` of the screw through the point `q` with direction `s` and pitch
`h`: the exponential of `theta` times its twist is the matrix of the dual quaternion built from the
direction `s`, the moment `q × s`, the angle `theta` and the displacement `h theta`. -/
theorem C144_screw_axis [P : RealParams] (q s : Vec 3 ℝ) (h theta : ℝ)
    (hs : s 0 ^ 2 + s 1 ^ 2 + s 2 ^ 2 = 1) :
    (DQuat.new_from_screw_parameters s (V3.cross q s) theta (h * theta)).to_homogeneous.toM
      = exp (theta • (twist_to_se3 (screw_to_axis q s h)).toM) := by
  have hl : IsLine s (V3.cross q s) := by
    refine ⟨hs, ?_⟩
    rw [V3.cross_0, V3.cross_1, V3.cross_2]; ring
  have e : twist_to_se3 (screw_to_axis q s h) = screwTwist s (V3.cross q s) 1 h := by
    unfold screwTwist screw_to_axis
    refine Mat.ext4 ?_ ?_ ?_ ?_ ?_ ?_ ?_ ?_ ?_ ?_ ?_ ?_ ?_ ?_ ?_ ?_ <;> simp [entries] <;> ring
  rw [screw_exp s _ hl, e, smul_twist, mul_one, mul_comm h]

/-- The line through `(1, 2, 3)` with direction `(2/3, 1/3, 2/3)`. -/
example [P : RealParams] : IsLine (⟨![2 / 3, 1 / 3, 2 / 3]⟩ : Vec 3 ℝ) ⟨![1 / 3, 4 / 3, -1]⟩ ∧
    P.eps ≤ 1 ∧ (1 : ℝ) < Real.pi := by
  have := P.eps_le
  refine ⟨⟨?_, ?_⟩, by norm_num at this ⊢; linarith, by linarith [Real.pi_gt_three]⟩
  · change (2 / 3 : ℝ) ^ 2 + (1 / 3) ^ 2 + (2 / 3) ^ 2 = 1
    norm_num
  · change (2 / 3 : ℝ) * (1 / 3) + 1 / 3 * (4 / 3) + 2 / 3 * (-1) = 0
    norm_num

private theorem hom_congr {x y : DQuat ℝ} (h : x.toD = y.toD) :
    x.to_homogeneous = y.to_homogeneous := by
  rw [DQuat.toD_inj, Quat.toH_inj, Quat.toH_inj] at h
  unfold DQuat.to_homogeneous DQuat.to_rotation_translation DQuat.get_translation Quat.to_rotation
    DQuat.real DQuat.dual Quat.real Quat.imag Quat.mul Quat.smul Quat.conj Quat.new
  rw [h.1.1, h.1.2, h.2.1, h.2.2]

/-- Powers of a dual quaternion with positive real part are exponentials of multiples of the
`matrix_log6` of its matrix. -/
theorem C144_pow [P : RealParams] (x : DQuat ℝ) (e : ℝ) (hx : x.IsMotion) (h0 : 0 < x.q_real.q0)
    (h1 : P.eps ≤ 2 * Real.arccos x.q_real.q0) :
    (x.pow e).to_homogeneous.toM = exp (e • (matrix_log6 x.to_homogeneous).toM) := by
  obtain ⟨⟨l, m, theta, d, hl, ht, ht2, hs, hp⟩, -⟩ := C67_pow_partial x hx (by linarith) h1
  have hq : x.q_real.q0 = Real.cos (theta / 2) := by
    have := (Quat.toH_inj.1 (DQuat.toD_inj.1 hs).1).1
    rw [← this, (screw_comp l m theta d).1]
  have hpi : theta < Real.pi := by
    by_contra hge
    have := Real.cos_nonpos_of_pi_div_two_le_of_le (x := theta / 2) (by linarith) (by linarith)
    linarith
  rw [hom_congr (hp e), ← hom_congr hs, log6_screw l m hl theta d ht hpi, smul_twist,
    screw_exp l m hl]

/-- `screw_lerp` walks along the exponential: at parameter `t` the matrix is the first one times the
exponential of `t` times the `matrix_log6` of the motion from the first to the second. Here the sum
the code tests is not negative, and the real part of the motion between the two is positive, so that
it is turned by less than half a turn. -/
theorem C144_screw_lerp [P : RealParams] (a b : DQuat ℝ) (t : ℝ) (ha : a.IsMotion) (hb : b.IsMotion)
    (h0 : 0 ≤ (a.q_real.toH * b.q_real.toH).re) (h1 : 0 < (star a.q_real.toH * b.q_real.toH).re)
    (h2 : P.eps ≤ 2 * Real.arccos (star a.q_real.toH * b.q_real.toH).re) :
    ∃ y, DQuat.screw_lerp a b t = .ok y ∧
      y.to_homogeneous.toM = a.to_homogeneous.toM * exp (t •
        (matrix_log6 (M44.mul (homogeneous_inverse a.to_homogeneous) b.to_homogeneous)).toM) := by
  obtain ⟨l, m, theta, d, y, hl, ht, ht2, hy, hz, hyt, -, -⟩ :=
    C119_screw_lerp a b ha hb h0 (by linarith) h2
  have hq : (star a.q_real.toH * b.q_real.toH).re = Real.cos (theta / 2) := by
    have h3 : b.q_real.toH
        = a.q_real.toH * (DQuat.new_from_screw_parameters l m theta d).q_real.toH := by
      rw [← DQuat.toD_mul, DQuat.toD_inj] at hz
      rw [hz.1, ← Quat.toH_mul]
      rfl
    rw [h3, ← mul_assoc, Quaternion.star_mul_self, ha.norm, show ((1 : ℝ) : ℍ[ℝ]) = 1 from rfl, one_mul,
      Quat.toH_re, (screw_comp l m theta d).1]
  have hpi : theta < Real.pi := by
    by_contra hge
    have := Real.cos_nonpos_of_pi_div_two_le_of_le (x := theta / 2) (by linarith) (by linarith)
    linarith
  have hb' : b.to_homogeneous
      = M44.mul a.to_homogeneous (DQuat.new_from_screw_parameters l m theta d).to_homogeneous := by
    rw [← (C62_product_partial a _ ha (screw_isMotion hl theta d) V3.zero).2.2.1]
    apply hom_congr
    rw [DQuat.toD_mul, hz]
  have hrig : IsRigid a.to_homogeneous := by
    obtain ⟨r1, r2, -, -⟩ := C48_to_rotation a.q_real a.q_real ha.norm
    refine ⟨?_, fun j => by fin_cases j <;> rfl⟩
    have : (a.to_homogeneous).block3 = a.q_real.to_rotation :=
      Mat.ext3 rfl rfl rfl rfl rfl rfl rfl rfl rfl
    rw [this, IsRot, Matrix.mem_specialOrthogonalGroup_iff, Matrix.mem_orthogonalGroup_iff]
    exact ⟨r1, r2⟩
  have hz' : M44.mul (homogeneous_inverse a.to_homogeneous) b.to_homogeneous
      = (DQuat.new_from_screw_parameters l m theta d).to_homogeneous := by
    have h3 := (C75_homogeneous_inverse _ hrig).2.2.1
    rw [← Mat.toM_inj, M44.toM_mul, M44.toM_one] at h3
    rw [hb', ← Mat.toM_inj, M44.toM_mul, M44.toM_mul, ← mul_assoc, h3, one_mul]
  refine ⟨y t, hy t, ?_⟩
  rw [hz', log6_screw l m hl theta d ht hpi, smul_twist, ← screw_exp l m hl, ← M44.toM_mul,
    ← (C62_product_partial a _ ha (screw_isMotion hl _ _) V3.zero).2.2.1]
  congr 1
  apply hom_congr
  rw [DQuat.toD_mul, hyt]

/-- The start `1`, and a screw motion with real part `3/5`. -/
example [P : RealParams] : let x : DQuat ℝ :=
      ⟨Quat.new_from (3 / 5) (4 / 5) 0 0, Quat.new_from (-4) 3 7 0, false⟩
    let a : DQuat ℝ := DQuat.one
    x.IsMotion ∧ a.IsMotion ∧ 0 < x.q_real.q0 ∧ P.eps ≤ 2 * Real.arccos x.q_real.q0 ∧
    0 ≤ (a.q_real.toH * x.q_real.toH).re ∧ 0 < (star a.q_real.toH * x.q_real.toH).re ∧
    P.eps ≤ 2 * Real.arccos (star a.q_real.toH * x.q_real.toH).re := by
  intro x a
  have ha : a.q_real.toH = 1 := rfl
  have he : P.eps ≤ 2 * Real.arccos (3 / 5) := by
    have h1 := P.eps_le
    have h2 : Real.pi / 4 ≤ Real.arccos (3 / 5) := by
      rw [← Real.arccos_cos (x := Real.pi / 4) (by positivity) (by linarith [Real.pi_pos])]
      apply Real.arccos_le_arccos
      rw [Real.cos_pi_div_four]
      have : (6 / 5 : ℝ) ≤ √2 := Real.le_sqrt_of_sq_le (by norm_num)
      linarith
    have := Real.pi_gt_three
    norm_num at h1
    linarith
  rw [ha, star_one, one_mul]
  refine ⟨?_, ?_, ?_, he, ?_, ?_, he⟩
  · rw [DQuat.isMotion_iff]
    constructor
    · change (3 / 5 : ℝ) ^ 2 + (4 / 5) ^ 2 + 0 ^ 2 + 0 ^ 2 = 1
      norm_num
    · change (3 / 5 : ℝ) * -4 + 4 / 5 * 3 + 0 * 7 + 0 * 0 = 0
      norm_num
  · rw [DQuat.isMotion_iff]
    constructor
    · change (1 : ℝ) ^ 2 + 0 ^ 2 + 0 ^ 2 + 0 ^ 2 = 1
      norm_num
    · change (1 : ℝ) * 0 + 0 * 0 + 0 * 0 + 0 * 0 = 0
      norm_num
  all_goals
    first
      | (change (0 : ℝ) < 3 / 5; norm_num)
      | (change (0 : ℝ) ≤ 3 / 5; norm_num)

end StaticMath

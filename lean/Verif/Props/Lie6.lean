import Verif.Props.Lie

/-!
# C81-C83: exponential and logarithm of SE(3), adjoint map
-/

namespace StaticMath

open NormedSpace

/-! ## Block arithmetic -/

private theorem se3_mul (A B : Mat 3 ℝ) (a b : Vec 3 ℝ) :
    M44.mul (se3_from_parts A a) (se3_from_parts B b)
      = se3_from_parts (M33.mul A B) (M33.mulVec A b) := by
  refine Mat.ext4 ?_ ?_ ?_ ?_ ?_ ?_ ?_ ?_ ?_ ?_ ?_ ?_ ?_ ?_ ?_ ?_ <;> simp only [entries] <;> ring

private theorem hom_mul_se3 (R A : Mat 3 ℝ) (p a : Vec 3 ℝ) :
    M44.mul (homogeneous_from_rotation R p) (se3_from_parts A a)
      = se3_from_parts (M33.mul R A) (M33.mulVec R a) := by
  refine Mat.ext4 ?_ ?_ ?_ ?_ ?_ ?_ ?_ ?_ ?_ ?_ ?_ ?_ ?_ ?_ ?_ ?_ <;> simp only [entries] <;> ring

private theorem se3_mul_hom (R A : Mat 3 ℝ) (p a : Vec 3 ℝ) :
    M44.mul (se3_from_parts A a) (homogeneous_from_rotation R p)
      = se3_from_parts (M33.mul A R) (V3.add (M33.mulVec A p) a) := by
  refine Mat.ext4 ?_ ?_ ?_ ?_ ?_ ?_ ?_ ?_ ?_ ?_ ?_ ?_ ?_ ?_ ?_ ?_ <;> simp only [entries] <;> ring

private theorem mulVec_mul (A B : Mat 3 ℝ) (v : Vec 3 ℝ) :
    M33.mulVec (M33.mul A B) v = M33.mulVec A (M33.mulVec B v) := by
  refine Vec.ext3 ?_ ?_ ?_ <;> simp only [entries] <;> ring

/-- The map applied to the translation part: `t + (1 - cos t) K + (t - sin t) K²`. -/
noncomputable def vmap [RealParams] (K : Mat 3 ℝ) (t : ℝ) : Mat 3 ℝ :=
  M33.add (M33.add (M33.smul M33.one t) (M33.smul K (1 - RFloat.cos t)))
    (M33.smul (M33.mul K K) (t - RFloat.sin t))

private theorem vmap_toM [RealParams] (K : Mat 3 ℝ) (t : ℝ) : (vmap K t).toM =
    t • (1 : Matrix (Fin 3) (Fin 3) ℝ) + (1 - Real.cos t) • K.toM + (t - Real.sin t) • K.toM ^ 2 := by
  rw [vmap, M33.toM_add, M33.toM_add, M33.toM_smul, M33.toM_smul, M33.toM_smul, M33.toM_one,
    M33.toM_mul, sq]
  rfl

private theorem series_blocks [RealParams] (K : Mat 3 ℝ) (a : Vec 3 ℝ) (t : ℝ) (ht : t ≠ 0) :
    M44.add (M44.add (M44.add M44.one (M44.smul (se3_from_parts K a) t))
      (M44.smul (se3_from_parts (M33.mul K K) (M33.mulVec K a)) (1 - Real.cos t)))
      (M44.smul (se3_from_parts (M33.neg K) (M33.mulVec (M33.mul K K) a)) (t - Real.sin t)) =
    homogeneous_from_rotation
      (M33.add (M33.add M33.one (M33.smul K (RFloat.sin t))) (M33.smul (M33.mul K K) (1 - RFloat.cos t)))
      (V3.sdiv (M33.mulVec (vmap K t) (V3.smul a t)) t) := by
  refine Mat.ext4 ?_ ?_ ?_ ?_ ?_ ?_ ?_ ?_ ?_ ?_ ?_ ?_ ?_ ?_ ?_ ?_ <;>
    simp only [vmap, entries, rfloat_sin, rfloat_cos] <;> field_simp <;> ring

/-- The exponential series on se(3), for a twist with rotation part `t` times a unit vector. -/
theorem exp_se3 [RealParams] (u v : Vec 3 ℝ) (t : ℝ) (ht : t ≠ 0)
    (hu : u 0 ^ 2 + u 1 ^ 2 + u 2 ^ 2 = 1) :
    exp (se3_from_parts (skew_from_vec (V3.smul u t)) v).toM =
      (homogeneous_from_rotation (rotation_from_axis_angle u t)
        (V3.sdiv (M33.mulVec (vmap (skew_from_vec u) t) v) t)).toM := by
  obtain ⟨K, hK⟩ : ∃ K, K = skew_from_vec u := ⟨_, rfl⟩
  have h3 : M33.mul (M33.mul K K) K = M33.neg K := by rw [hK]; exact skew_cube u hu
  obtain ⟨a, ha⟩ : ∃ a : Vec 3 ℝ, a = ⟨fun i => v i / t⟩ := ⟨_, rfl⟩
  have hv : v = V3.smul a t := by
    rw [ha]
    exact Vec.ext (funext fun i => by rw [V3.smul_apply]; exact (div_mul_cancel₀ _ ht).symm)
  have y2 : M44.mul (se3_from_parts K a) (se3_from_parts K a)
      = se3_from_parts (M33.mul K K) (M33.mulVec K a) := se3_mul K K a a
  have y3 : M44.mul (se3_from_parts (M33.mul K K) (M33.mulVec K a)) (se3_from_parts K a)
      = se3_from_parts (M33.neg K) (M33.mulVec (M33.mul K K) a) := by rw [se3_mul, h3]
  have y4 : M44.mul (se3_from_parts (M33.neg K) (M33.mulVec (M33.mul K K) a)) (se3_from_parts K a)
      = M44.neg (se3_from_parts (M33.mul K K) (M33.mulVec K a)) := by
    rw [se3_mul]
    refine Mat.ext4 ?_ ?_ ?_ ?_ ?_ ?_ ?_ ?_ ?_ ?_ ?_ ?_ ?_ ?_ ?_ ?_ <;> simp only [entries] <;> ring
  have hx : se3_from_parts (skew_from_vec (V3.smul u t)) v = M44.smul (se3_from_parts K a) t := by
    rw [hv, hK]
    refine Mat.ext4 ?_ ?_ ?_ ?_ ?_ ?_ ?_ ?_ ?_ ?_ ?_ ?_ ?_ ?_ ?_ ?_ <;> simp only [entries] <;> ring
  have p2 : (se3_from_parts K a).toM ^ 2
      = (se3_from_parts (M33.mul K K) (M33.mulVec K a)).toM := by rw [sq, ← M44.toM_mul, y2]
  have p3 : (se3_from_parts K a).toM ^ 3
      = (se3_from_parts (M33.neg K) (M33.mulVec (M33.mul K K) a)).toM := by
    rw [pow_succ, p2, ← M44.toM_mul, y3]
  have p4 : (se3_from_parts K a).toM ^ 4 = -(se3_from_parts K a).toM ^ 2 := by
    rw [pow_succ, p3, p2, ← M44.toM_mul, y4, M44.toM_neg]
  rw [hx, M44.toM_smul, exp_of_pow_four _ p4, p2, p3, ← M44.toM_one, ← M44.toM_smul,
    ← M44.toM_smul, ← M44.toM_smul, ← M44.toM_add, ← M44.toM_add, ← M44.toM_add,
    series_blocks K a t ht, hv, hK]
  rfl

/-! ## C81 matrix_exponential6 -/

private theorem mexp6_eq [P : RealParams] (u v : Vec 3 ℝ) (t : ℝ) (ht : P.eps ≤ t)
    (hu : u 0 ^ 2 + u 1 ^ 2 + u 2 ^ 2 = 1) :
    matrix_exponential6 (se3_from_parts (skew_from_vec (V3.smul u t)) v) =
      .ok (homogeneous_from_rotation (rotation_from_axis_angle u t)
        (V3.sdiv (M33.mulVec (vmap (skew_from_vec u) t) v) t)) := by
  have hpos : 0 < t := lt_of_lt_of_le P.eps_pos ht
  have hn := norm_unit_smul u t hpos.le hu
  have hz : nearly_zero t = false := by
    rw [nearly_zero_eq, abs_of_pos hpos]; simpa using ht
  have hp : se3_get_parts (se3_from_parts (skew_from_vec (V3.smul u t)) v)
      = (skew_from_vec (V3.smul u t), v) :=
    Prod.ext (Mat.ext3 rfl rfl rfl rfl rfl rfl rfl rfl rfl) (Vec.ext3 rfl rfl rfl)
  have hw : skew_to_vec (skew_from_vec (V3.smul u t)) = V3.smul u t := Vec.ext3 rfl rfl rfl
  have hd : M33.sdiv (skew_from_vec (V3.smul u t)) t = skew_from_vec u := by
    refine Mat.ext3 ?_ ?_ ?_ ?_ ?_ ?_ ?_ ?_ ?_ <;> simp only [entries] <;> field_simp <;> simp
  unfold matrix_exponential6
  simp only [hp, hw, hn, hz, axis_angle_eq, if_neg hpos.ne', mexp_unit u t ht hu,
    Bool.false_eq_true, if_false, bind, Except.bind, pure, Except.pure, hd]
  generalize rotation_from_axis_angle u t = E
  rfl

/-- The vector of the rotation block of `X` is `(X 2 1, X 0 2, X 1 0)`, that of its translation
`(X 0 3, X 1 3, X 2 3)`. `matrix_exponential6` never panics, and it is the exponential series and a
rigid transformation when the rotation part has norm at least EPSILON.

Missing: twists whose rotation part is zero. The code returns a matrix with a stray one at row 0,
column 2 there, see `C81_matrix_exponential6_false`. -/
theorem C81_matrix_exponential6_partial [P : RealParams] (X : Mat 4 ℝ) :
    (∃ E, matrix_exponential6 X = .ok E) ∧
    (√(X 2 1 ^ 2 + X 0 2 ^ 2 + X 1 0 ^ 2) < P.eps →
      ∃ E, matrix_exponential6 X = .ok E ∧
        ∀ i j, E i j = if j = 3 ∧ i ≠ 3 then X i 3 else if i = j ∨ (i = 0 ∧ j = 2) then 1 else 0) ∧
    (IsSe3 X → P.eps ≤ √(X 2 1 ^ 2 + X 0 2 ^ 2 + X 1 0 ^ 2) →
      ∃ E, matrix_exponential6 X = .ok E ∧ IsRigid E ∧ E.toM = exp X.toM) := by
  have hn : √(X 2 1 ^ 2 + X 0 2 ^ 2 + X 1 0 ^ 2) = V3.norm2 (skew_to_vec (se3_get_parts X).1) :=
    (V3.norm2_eq_sqrt (skew_to_vec (se3_get_parts X).1)).symm
  have hsmall : √(X 2 1 ^ 2 + X 0 2 ^ 2 + X 1 0 ^ 2) < P.eps →
      ∃ E, matrix_exponential6 X = .ok E ∧
        ∀ i j, E i j = if j = 3 ∧ i ≠ 3 then X i 3 else if i = j ∨ (i = 0 ∧ j = 2) then 1 else 0 := by
    intro h
    rw [hn] at h
    have hz : nearly_zero (V3.norm2 (skew_to_vec (se3_get_parts X).1)) = true := by
      rw [nearly_zero_eq, abs_of_nonneg (V3.norm2_nonneg _)]; simpa using h
    unfold matrix_exponential6
    simp only [hz]
    refine ⟨_, rfl, fun i j => ?_⟩
    fin_cases i <;> fin_cases j <;> rfl
  refine ⟨?_, hsmall, fun hX h => ?_⟩
  · rcases lt_or_ge (√(X 2 1 ^ 2 + X 0 2 ^ 2 + X 1 0 ^ 2)) P.eps with h | h
    · obtain ⟨E, hE, -⟩ := hsmall h
      exact ⟨E, hE⟩
    · rw [hn] at h
      have hpos := lt_of_lt_of_le P.eps_pos h
      have hz : nearly_zero (V3.norm2 (skew_to_vec (se3_get_parts X).1)) = false := by
        rw [nearly_zero_eq, abs_of_pos hpos]; simpa using h
      unfold matrix_exponential6 matrix_exponential
      simp only [hz, axis_angle_eq, if_neg hpos.ne']
      exact ⟨_, rfl⟩
  · rw [hn] at h
    have hpos := lt_of_lt_of_le P.eps_pos h
    obtain ⟨w, hw⟩ : ∃ w, w = skew_to_vec (se3_get_parts X).1 := ⟨_, rfl⟩
    rw [← hw] at h hpos
    have hu := unit_of_div w hpos
    obtain ⟨u, hu'⟩ : ∃ u : Vec 3 ℝ, u = ⟨fun i => w i / V3.norm2 w⟩ := ⟨_, rfl⟩
    have hs : V3.smul u (V3.norm2 w) = w := by rw [hu']; exact smul_div_norm w hpos
    have hu : u 0 ^ 2 + u 1 ^ 2 + u 2 ^ 2 = 1 := by rw [hu']; exact hu
    have e : X = se3_from_parts (skew_from_vec (V3.smul u (V3.norm2 w))) (se3_get_parts X).2 := by
      rw [hs, hw, (C77_skew V3.zero V3.zero (se3_get_parts X).1).2.2.2]
      · exact ((C74_get_parts (M44.one) X (fun j => by fin_cases j <;> rfl) hX.last Quat.zero
          V3.zero).2.1).symm
      · intro i j
        have := hX.skew i j
        fin_cases i <;> fin_cases j <;> exact this
      · intro i
        have := hX.skew i i
        have : X i.castSucc i.castSucc = 0 := by linarith
        fin_cases i <;> exact this
    rw [e, mexp6_eq u _ _ h hu]
    exact ⟨_, rfl, isRigid_from (C78_rodrigues u hu _ 0).2.1 _, (exp_se3 u _ _ hpos.ne' hu).symm⟩

/-- A screw motion about z. -/
example [P : RealParams] : IsSe3 (twist_to_se3 ⟨![0, 0, 1, 2, 3, 4]⟩) ∧
    P.eps ≤ √(twist_to_se3 (⟨![0, 0, 1, 2, 3, 4]⟩ : Vec 6 ℝ) 2 1 ^ 2
      + twist_to_se3 (⟨![0, 0, 1, 2, 3, 4]⟩ : Vec 6 ℝ) 0 2 ^ 2
      + twist_to_se3 (⟨![0, 0, 1, 2, 3, 4]⟩ : Vec 6 ℝ) 1 0 ^ 2) := by
  refine ⟨(C84_twists _ M44.zero).1, ?_⟩
  have := P.eps_le
  change P.eps ≤ √((0 : ℝ) ^ 2 + (0 : ℝ) ^ 2 + (1 : ℝ) ^ 2)
  norm_num at this ⊢
  linarith

/-- The exponential of every pure translation, in particular of the zero twist, is neither rigid nor
the exponential series. -/
theorem C81_matrix_exponential6_false [P : RealParams] (x y z : ℝ) :
    ∃ E, matrix_exponential6 (twist_to_se3 ⟨![0, 0, 0, x, y, z]⟩) = .ok E ∧ ¬IsRigid E ∧
      E.toM ≠ exp (twist_to_se3 (⟨![0, 0, 0, x, y, z]⟩ : Vec 6 ℝ)).toM := by
  obtain ⟨E, hE, h⟩ := (C81_matrix_exponential6_partial (twist_to_se3 ⟨![0, 0, 0, x, y, z]⟩)).2.1
    (by
      change √((0 : ℝ) ^ 2 + (0 : ℝ) ^ 2 + (0 : ℝ) ^ 2) < P.eps
      simpa using P.eps_pos)
  have h2 : E 0 2 = 1 := (h 0 2).trans (by simp)
  have h0 : E 0 0 = 1 := (h 0 0).trans (by simp)
  have h1 : E 0 1 = 0 := (h 0 1).trans (by simp)
  refine ⟨E, hE, fun hr => ?_, fun he => ?_⟩
  · have := (SO3Rels.of_mem hr.rot).r00
    change E 0 0 * E 0 0 + E 0 1 * E 0 1 + E 0 2 * E 0 2 = 1 at this
    rw [h0, h1, h2] at this
    norm_num at this
  · have hsq : (twist_to_se3 (⟨![0, 0, 0, x, y, z]⟩ : Vec 6 ℝ)).toM ^ 2 = 0 := by
      rw [sq, ← M44.toM_mul, ← M44.toM_zero, Mat.toM_inj]
      refine Mat.ext4 ?_ ?_ ?_ ?_ ?_ ?_ ?_ ?_ ?_ ?_ ?_ ?_ ?_ ?_ ?_ ?_ <;> simp only [entries] <;> ring
    rw [exp_of_sq_zero _ hsq, ← M44.toM_one, ← M44.toM_add, Mat.toM_inj] at he
    rw [he] at h2
    simp only [entries] at h2
    norm_num at h2

/-! ## C82 matrix_log6 -/

/-- `(t + (1 - cos t) K + (t - sin t) K²) (1 - t/2 K + (1 - t/2 cot (t/2)) K²) = t`. -/
private theorem vmap_inv [RealParams] (u : Vec 3 ℝ) (t : ℝ) (ht : 0 < t) (hpi : t ≤ Real.pi)
    (hu : u 0 ^ 2 + u 1 ^ 2 + u 2 ^ 2 = 1) :
    M33.mul (vmap (skew_from_vec u) t)
      (M33.add (M33.sub M33.one (M33.sdiv (skew_from_vec (V3.smul u t)) 2))
        (M33.sdiv (M33.smul (M33.mul (skew_from_vec (V3.smul u t)) (skew_from_vec (V3.smul u t)))
          (1 / t - 1 / Real.tan (t / 2) / 2)) t)) = M33.smul M33.one t := by
  have hs : 0 < Real.sin (t / 2) :=
    Real.sin_pos_of_pos_of_lt_pi (by linarith) (by linarith [Real.pi_pos])
  have hcot : 1 / Real.tan (t / 2) = Real.cos (t / 2) / Real.sin (t / 2) := by
    rw [Real.tan_eq_sin_div_cos, one_div_div]
  have hsin : Real.sin t = 2 * Real.sin (t / 2) * Real.cos (t / 2) := by
    rw [← Real.sin_two_mul, mul_div_cancel₀ t two_ne_zero]
  have hcos : 1 - Real.cos t = 2 * Real.sin (t / 2) ^ 2 := by
    have := Real.cos_two_mul' (t / 2)
    rw [mul_div_cancel₀ t two_ne_zero] at this
    linarith [Real.sin_sq_add_cos_sq (t / 2)]
  rw [hcot]
  obtain ⟨q, hq⟩ : ∃ q, q = Real.cos (t / 2) / Real.sin (t / 2) := ⟨_, rfl⟩
  have hq1 : q * Real.sin (t / 2) = Real.cos (t / 2) := by rw [hq]; exact div_mul_cancel₀ _ hs.ne'
  rw [← hq]
  have hK := skew_pow u hu
  have e : (M33.add (M33.sub M33.one (M33.sdiv (skew_from_vec (V3.smul u t)) 2))
        (M33.sdiv (M33.smul (M33.mul (skew_from_vec (V3.smul u t)) (skew_from_vec (V3.smul u t)))
          (1 / t - q / 2)) t)).toM = (1 : ℝ) • (1 : Matrix (Fin 3) (Fin 3) ℝ)
        + (-(t / 2)) • (skew_from_vec u).toM + (1 - t / 2 * q) • (skew_from_vec u).toM ^ 2 := by
    rw [sq, ← M33.toM_mul, ← M33.toM_one, ← M33.toM_smul, ← M33.toM_smul, ← M33.toM_smul,
      ← M33.toM_add, ← M33.toM_add, Mat.toM_inj]
    refine Mat.ext3 ?_ ?_ ?_ ?_ ?_ ?_ ?_ ?_ ?_ <;> simp only [entries] <;> field_simp <;> ring
  rw [← Mat.toM_inj, M33.toM_mul, e, vmap_toM, cubic_mul _ hK, M33.toM_smul, M33.toM_one]
  have k1 : t * -(t / 2) + (1 - Real.cos t) * 1 - (1 - Real.cos t) * (1 - t / 2 * q)
      - (t - Real.sin t) * -(t / 2) = 0 := by
    rw [hcos, hsin]
    linear_combination t * Real.sin (t / 2) * hq1
  have k2 : t * (1 - t / 2 * q) + (1 - Real.cos t) * -(t / 2) + (t - Real.sin t) * 1
      - (t - Real.sin t) * (1 - t / 2 * q) = 0 := by
    rw [hcos, hsin]
    linear_combination -t * Real.cos (t / 2) * hq1 - t * Real.sin_sq_add_cos_sq (t / 2)
  rw [k1, k2, zero_smul, zero_smul, add_zero, add_zero, mul_one]

private theorem is_zero_iff (A : Mat 3 ℝ) : A.is_zero = true ↔ A = M33.zero := by
  rw [Mat.is_zero, Mat.beq]
  simp only [List.all_eq_true, List.mem_finRange, forall_const, rord_beq, decide_eq_true_eq]
  refine ⟨fun h => Mat.ext (funext fun i => funext fun j => ?_), fun h i j => ?_⟩
  · rw [M33.zero_apply]; exact h i j
  · rw [h, M33.zero_apply]

private theorem log6_zero [P : RealParams] (R : Mat 3 ℝ) (p : Vec 3 ℝ) (h : matrix_log R = M33.zero) :
    matrix_log6 (homogeneous_from_rotation R p) = se3_from_parts M33.zero p := by
  have hp : get_parts_raw (homogeneous_from_rotation R p) = (R, p) :=
    (C74_homogeneous R R p p p).1
  have hz := (is_zero_iff (matrix_log R)).2 h
  unfold matrix_log6
  simp only [hp, hz]
  exact Mat.ext4 rfl rfl rfl rfl rfl rfl rfl rfl rfl rfl rfl rfl rfl rfl rfl rfl

private theorem log6_form [P : RealParams] (R : Mat 3 ℝ) (p u : Vec 3 ℝ) (t : ℝ)
    (ht : t = Real.arccos ((M33.trace R - 1) / 2)) (hpos : 0 < t)
    (hu : u 0 ^ 2 + u 1 ^ 2 + u 2 ^ 2 = 1) (hl : matrix_log R = skew_from_vec (V3.smul u t)) :
    matrix_log6 (homogeneous_from_rotation R p) = se3_from_parts (skew_from_vec (V3.smul u t))
      (M33.mulVec (M33.add (M33.sub M33.one (M33.sdiv (skew_from_vec (V3.smul u t)) 2))
        (M33.sdiv (M33.smul (M33.mul (skew_from_vec (V3.smul u t)) (skew_from_vec (V3.smul u t)))
          (1 / t - 1 / Real.tan (t / 2) / 2)) t)) p) := by
  have hp : get_parts_raw (homogeneous_from_rotation R p) = (R, p) :=
    (C74_homogeneous R R p p p).1
  have hz : (skew_from_vec (V3.smul u t)).is_zero = false := by
    rw [Bool.eq_false_iff, ne_eq, is_zero_iff]
    intro h0
    have hn := norm_unit_smul u t hpos.le hu
    have : V3.smul u t = V3.zero := by
      have := congrArg skew_to_vec h0
      rw [show skew_to_vec (skew_from_vec (V3.smul u t)) = V3.smul u t from Vec.ext3 rfl rfl rfl] at this
      rw [this]
      exact Vec.ext3 rfl rfl rfl
    rw [(V3.norm2_zero _).2 this] at hn
    exact hpos.ne hn
  unfold matrix_log6
  simp only [hp, hl, hz, one_add_one_eq_two, rfloat_acos, rfloat_tan, ← ht]
  rfl

/-- `matrix_log6` is a logarithm for every rigid transformation whose rotation is outside
`NearXHalfTurn`, pure translations included, and `matrix_exponential6` brings it back when the
rotation angle is at least EPSILON. For a half turn the code evaluates `1 / tan(pi / 2)`, which is
zero here by the convention for division by zero; this is also the limit.

Missing: the rotations of `C80_matrix_log_partial`, and rotation angles below EPSILON, the pure
translations among them, where `matrix_exponential6` is wrong. See the two theorems below. -/
theorem C82_matrix_log6_partial [P : RealParams] (H : Mat 4 ℝ) (hH : IsRigid H) :
    IsSe3 (matrix_log6 H) ∧
    (¬NearXHalfTurn H.block3 → exp (matrix_log6 H).toM = H.toM ∧
      (P.eps ≤ Real.arccos ((H 0 0 + H 1 1 + H 2 2 - 1) / 2) →
        matrix_exponential6 (matrix_log6 H) = .ok H)) := by
  obtain ⟨hR, e⟩ := hH.parts
  obtain ⟨R, hr⟩ : ∃ R, R = (get_parts_raw H).1 := ⟨_, rfl⟩
  obtain ⟨p, hp⟩ : ∃ p, p = (get_parts_raw H).2 := ⟨_, rfl⟩
  have hb : H.block3 = R := by rw [hr]; exact Mat.ext3 rfl rfl rfl rfl rfl rfl rfl rfl rfl
  have htr : H 0 0 + H 1 1 + H 2 2 = M33.trace R := by rw [trace3, hr]; rfl
  rw [← hr] at hR
  rw [hb, htr]
  rw [← hr, ← hp] at e
  rw [e]
  constructor
  · have hs := (C80_matrix_log_partial R hR).1
    have hgp : get_parts_raw (homogeneous_from_rotation R p) = (R, p) :=
      (C74_homogeneous R R p p p).1
    unfold matrix_log6
    simp only [hgp]
    split
    · exact ⟨fun i j => by fin_cases i <;> fin_cases j <;> exact (neg_zero (G := ℝ)).symm,
        fun j => by fin_cases j <;> rfl⟩
    · exact ⟨fun i j => by fin_cases i <;> fin_cases j <;> exact hs _ _,
        fun j => by fin_cases j <;> rfl⟩
  · intro hx
    rcases le_or_gt 3 (R 0 0 + R 1 1 + R 2 2) with h3 | h3
    · obtain ⟨h1, h2⟩ := log_one R hR h3
      rw [log6_zero R p h2, h1]
      constructor
      · rw [exp_of_sq_zero, ← M44.toM_one, ← M44.toM_add, Mat.toM_inj]
        · refine Mat.ext4 ?_ ?_ ?_ ?_ ?_ ?_ ?_ ?_ ?_ ?_ ?_ ?_ ?_ ?_ ?_ ?_ <;> simp only [entries] <;>
            ring
        · rw [sq, ← M44.toM_mul, ← M44.toM_zero, Mat.toM_inj]
          refine Mat.ext4 ?_ ?_ ?_ ?_ ?_ ?_ ?_ ?_ ?_ ?_ ?_ ?_ ?_ ?_ ?_ ?_ <;> simp only [entries] <;>
            ring
      · intro h
        rw [trace3] at h
        simp only [entries] at h
        norm_num at h
        exact absurd P.eps_pos (not_lt.2 h)
    · obtain ⟨u, t, ht, hpos, hpi, hu, hl, hr'⟩ := log_form R hR h3 hx
      rw [log6_form R p u t ht hpos hu hl]
      have hv : V3.sdiv (M33.mulVec (vmap (skew_from_vec u) t)
          (M33.mulVec (M33.add (M33.sub M33.one (M33.sdiv (skew_from_vec (V3.smul u t)) 2))
            (M33.sdiv (M33.smul (M33.mul (skew_from_vec (V3.smul u t)) (skew_from_vec (V3.smul u t)))
              (1 / t - 1 / Real.tan (t / 2) / 2)) t)) p)) t = p := by
        rw [← mulVec_mul, vmap_inv u t hpos hpi hu]
        refine Vec.ext3 ?_ ?_ ?_ <;> simp only [entries] <;> field_simp <;> ring
      constructor
      · rw [exp_se3 u _ t hpos.ne' hu, hv, ← hr']
      · intro h
        rw [← ht] at h
        rw [mexp6_eq u _ t h hu, hv, ← hr']

/-- A quarter turn about x with a translation. -/
example [P : RealParams] : IsRigid (homogeneous_from_rotation (rotx (Real.pi / 2)) ⟨![1, 2, 3]⟩) ∧
    ¬NearXHalfTurn (homogeneous_from_rotation (rotx (Real.pi / 2)) ⟨![1, 2, 3]⟩).block3 := by
  refine ⟨isRigid_from (isRot_rotx _) _, fun h => ?_⟩
  have h := h.1
  change (1 : ℝ) + Real.cos (Real.pi / 2) + Real.cos (Real.pi / 2) = -1 at h
  rw [Real.cos_pi_div_two] at h
  norm_num at h

/-- The identity does not come back. -/
theorem C82_matrix_log6_false [P : RealParams] :
    IsRigid (M44.one : Mat 4 ℝ) ∧ matrix_exponential6 (matrix_log6 (M44.one : Mat 4 ℝ)) ≠ .ok M44.one := by
  have e : (M44.one : Mat 4 ℝ) = homogeneous_from_rotation M33.one V3.zero :=
    Mat.ext4 rfl rfl rfl rfl rfl rfl rfl rfl rfl rfl rfl rfl rfl rfl rfl rfl
  have h1 : IsRot (M33.one : Mat 3 ℝ) := by rw [IsRot, M33.toM_one]; exact one_mem _
  have hr : IsRigid (M44.one : Mat 4 ℝ) := by rw [e]; exact isRigid_from h1 _
  refine ⟨hr, ?_⟩
  have hl : matrix_log (M33.one : Mat 3 ℝ) = M33.zero := (log_one _ h1 (by
    simp only [entries]; norm_num)).2
  rw [show matrix_log6 (M44.one : Mat 4 ℝ) = twist_to_se3 ⟨![0, 0, 0, 0, 0, 0]⟩ by
    rw [e, log6_zero _ _ hl]
    refine Mat.ext4 ?_ ?_ ?_ ?_ ?_ ?_ ?_ ?_ ?_ ?_ ?_ ?_ ?_ ?_ ?_ ?_ <;> simp only [entries] <;> simp]
  obtain ⟨E, hE, hn, -⟩ := C81_matrix_exponential6_false 0 0 0
  rw [hE]
  intro h
  rw [Except.ok.inj h] at hn
  exact hn hr

/-! ## C118: the logarithms recover axis, angle and twist -/

private theorem rodrigues_rot [RealParams] (u : Vec 3 ℝ) (t : ℝ)
    (hu : u 0 ^ 2 + u 1 ^ 2 + u 2 ^ 2 = 1) :
    M33.trace (rotation_from_axis_angle u t) = 1 + 2 * Real.cos t ∧
    M33.sub (rotation_from_axis_angle u t) (M33.transpose (rotation_from_axis_angle u t))
      = skew_from_vec (V3.smul u (2 * Real.sin t)) := by
  constructor
  · rw [trace3]
    simp only [rotation_from_axis_angle, entries, rfloat_sin, rfloat_cos]
    linear_combination -2 * (1 - Real.cos t) * hu
  · refine Mat.ext3 ?_ ?_ ?_ ?_ ?_ ?_ ?_ ?_ ?_ <;>
      simp only [rotation_from_axis_angle, entries, rfloat_sin, rfloat_cos] <;> ring

private theorem log_rodrigues [RealParams] (u : Vec 3 ℝ) (t : ℝ)
    (hu : u 0 ^ 2 + u 1 ^ 2 + u 2 ^ 2 = 1) (h0 : 0 < t) (h1 : t < Real.pi) :
    matrix_log (rotation_from_axis_angle u t) = skew_from_vec (V3.smul u t) ∧
    Real.arccos ((M33.trace (rotation_from_axis_angle u t) - 1) / 2) = t := by
  obtain ⟨ht, hs⟩ := rodrigues_rot u t hu
  have ha : (M33.trace (rotation_from_axis_angle u t) - 1) / 2 = Real.cos t := by rw [ht]; ring
  have hac := Real.arccos_cos h0.le h1.le
  have hsin : 0 < Real.sin t := Real.sin_pos_of_pos_of_lt_pi h0 h1
  have hlt : Real.cos t < 1 := by
    rw [← Real.cos_zero]; exact Real.cos_lt_cos_of_nonneg_of_le_pi le_rfl h1.le h0
  have hgt : -1 < Real.cos t := by
    rw [← Real.cos_pi]; exact Real.cos_lt_cos_of_nonneg_of_le_pi h0.le le_rfl h1
  refine ⟨?_, by rw [ha, hac]⟩
  unfold matrix_log
  simp only [one_add_one_eq_two, ha, rord_le, not_le.2 hlt, not_le.2 hgt, decide_false,
    Bool.false_eq_true, if_false, rfloat_acos, rfloat_sin, hac, hs]
  refine Mat.ext3 ?_ ?_ ?_ ?_ ?_ ?_ ?_ ?_ ?_ <;> simp only [entries] <;> field_simp <;> simp

/-- For angles strictly between zero and a half turn, `matrix_log` of a Rodrigues rotation is the
angle times the axis it was built from, and for angles of at least EPSILON `matrix_log` and
`matrix_log6` bring back what `matrix_exponential` and `matrix_exponential6` were given. -/
theorem C118_logarithms [P : RealParams] (u v : Vec 3 ℝ) (t : ℝ)
    (hu : u 0 ^ 2 + u 1 ^ 2 + u 2 ^ 2 = 1) (h0 : 0 < t) (h1 : t < Real.pi) :
    matrix_log (rotation_from_axis_angle u t) = skew_from_vec (V3.smul u t) ∧
    (P.eps ≤ t →
      (∃ R, matrix_exponential (skew_from_vec (V3.smul u t)) = .ok R ∧
        matrix_log R = skew_from_vec (V3.smul u t)) ∧
      ∃ H, matrix_exponential6 (se3_from_parts (skew_from_vec (V3.smul u t)) v) = .ok H ∧
        matrix_log6 H = se3_from_parts (skew_from_vec (V3.smul u t)) v) := by
  obtain ⟨hl, ha⟩ := log_rodrigues u t hu h0 h1
  refine ⟨hl, fun ht => ⟨⟨_, mexp_unit u t ht hu, hl⟩, _, mexp6_eq u v t ht hu, ?_⟩⟩
  rw [log6_form _ _ u t ha.symm h0 hu hl]
  congr 1
  have hinv := vmap_inv u t h0 h1.le hu
  have hcomm : M33.mul (M33.add (M33.sub M33.one (M33.sdiv (skew_from_vec (V3.smul u t)) 2))
        (M33.sdiv (M33.smul (M33.mul (skew_from_vec (V3.smul u t)) (skew_from_vec (V3.smul u t)))
          (1 / t - 1 / Real.tan (t / 2) / 2)) t)) (vmap (skew_from_vec u) t) = M33.smul M33.one t := by
    rw [← Mat.toM_inj, M33.toM_mul, M33.toM_smul, M33.toM_one] at hinv ⊢
    have h2 : (t⁻¹ • (vmap (skew_from_vec u) t).toM) *
        (M33.add (M33.sub M33.one (M33.sdiv (skew_from_vec (V3.smul u t)) 2))
        (M33.sdiv (M33.smul (M33.mul (skew_from_vec (V3.smul u t)) (skew_from_vec (V3.smul u t)))
          (1 / t - 1 / Real.tan (t / 2) / 2)) t)).toM = 1 := by
      rw [smul_mul_assoc, hinv, smul_smul, inv_mul_cancel₀ h0.ne', one_smul]
    have h3 := mul_eq_one_comm.1 h2
    rw [mul_smul_comm] at h3
    calc _ = t • (t⁻¹ • (_ : Matrix (Fin 3) (Fin 3) ℝ)) := by
          rw [smul_smul, mul_inv_cancel₀ h0.ne', one_smul]
      _ = _ := by rw [h3]
  have hsd (w : Vec 3 ℝ) (A : Mat 3 ℝ) : M33.mulVec A (V3.sdiv w t) = V3.sdiv (M33.mulVec A w) t := by
    refine Vec.ext3 ?_ ?_ ?_ <;> simp only [entries] <;> ring
  rw [hsd, ← mulVec_mul, hcomm]
  refine Vec.ext3 ?_ ?_ ?_ <;> simp only [entries] <;> field_simp <;> ring

/-- An axis with no zero component and a right angle. -/
example [P : RealParams] : (2 / 3 : ℝ) ^ 2 + (1 / 3) ^ 2 + (2 / 3) ^ 2 = 1 ∧ 0 < Real.pi / 2 ∧
    Real.pi / 2 < Real.pi ∧ P.eps ≤ Real.pi / 2 := by
  have := P.eps_le
  have h := Real.pi_gt_three
  norm_num at this ⊢
  refine ⟨by linarith, by linarith⟩

/-! ## C83 adjoint -/

/-- The adjoint in blocks: `[[R, 0], [[p] R, R]]`. -/
private def adj (R : Mat 3 ℝ) (p : Vec 3 ℝ) : Mat 6 ℝ :=
  let S := M33.mul (skew_from_vec p) R
  ⟨![![R 0 0, R 0 1, R 0 2, 0, 0, 0], ![R 1 0, R 1 1, R 1 2, 0, 0, 0],
    ![R 2 0, R 2 1, R 2 2, 0, 0, 0], ![S 0 0, S 0 1, S 0 2, R 0 0, R 0 1, R 0 2],
    ![S 1 0, S 1 1, S 1 2, R 1 0, R 1 1, R 1 2], ![S 2 0, S 2 1, S 2 2, R 2 0, R 2 1, R 2 2]]⟩

private theorem adjoint_eq (R : Mat 3 ℝ) (p : Vec 3 ℝ) (H : Mat 4 ℝ)
    (h : get_parts_raw H = (R, p)) : adjoint H = .ok (adj R p) := by
  unfold adjoint
  rw [h]
  refine Eq.trans (b := Except.ok _) rfl (congrArg Except.ok ?_)
  refine Mat.ext (funext fun i => funext fun j => ?_)
  fin_cases i <;> fin_cases j <;> rfl

/-- A twist from its rotation and translation parts. -/
private def join (w v : Vec 3 ℝ) : Vec 6 ℝ := ⟨![w 0, w 1, w 2, v 0, v 1, v 2]⟩

private theorem exists_join (V : Vec 6 ℝ) : ∃ w v, V = join w v := by
  refine ⟨⟨![V 0, V 1, V 2]⟩, ⟨![V 3, V 4, V 5]⟩, Vec.ext (funext fun i => ?_)⟩
  fin_cases i <;> rfl

private theorem adj_mulVec (R : Mat 3 ℝ) (p w v : Vec 3 ℝ) :
    M66.mulVec (adj R p) (join w v) = join (M33.mulVec R w)
      (V3.add (M33.mulVec (skew_from_vec p) (M33.mulVec R w)) (M33.mulVec R v)) := by
  rw [← mulVec_mul]
  refine Vec.ext (funext fun i => ?_)
  fin_cases i
  · change R 0 0 * w 0 + R 0 1 * w 1 + R 0 2 * w 2 + 0 * v 0 + 0 * v 1 + 0 * v 2 = M33.mulVec R w 0
    simp only [entries]; ring
  · change R 1 0 * w 0 + R 1 1 * w 1 + R 1 2 * w 2 + 0 * v 0 + 0 * v 1 + 0 * v 2 = M33.mulVec R w 1
    simp only [entries]; ring
  · change R 2 0 * w 0 + R 2 1 * w 1 + R 2 2 * w 2 + 0 * v 0 + 0 * v 1 + 0 * v 2 = M33.mulVec R w 2
    simp only [entries]; ring
  · change M33.mul (skew_from_vec p) R 0 0 * w 0 + M33.mul (skew_from_vec p) R 0 1 * w 1
      + M33.mul (skew_from_vec p) R 0 2 * w 2 + R 0 0 * v 0 + R 0 1 * v 1 + R 0 2 * v 2
      = V3.add (M33.mulVec (M33.mul (skew_from_vec p) R) w) (M33.mulVec R v) 0
    simp only [entries]; ring
  · change M33.mul (skew_from_vec p) R 1 0 * w 0 + M33.mul (skew_from_vec p) R 1 1 * w 1
      + M33.mul (skew_from_vec p) R 1 2 * w 2 + R 1 0 * v 0 + R 1 1 * v 1 + R 1 2 * v 2
      = V3.add (M33.mulVec (M33.mul (skew_from_vec p) R) w) (M33.mulVec R v) 1
    simp only [entries]; ring
  · change M33.mul (skew_from_vec p) R 2 0 * w 0 + M33.mul (skew_from_vec p) R 2 1 * w 1
      + M33.mul (skew_from_vec p) R 2 2 * w 2 + R 2 0 * v 0 + R 2 1 * v 1 + R 2 2 * v 2
      = V3.add (M33.mulVec (M33.mul (skew_from_vec p) R) w) (M33.mulVec R v) 2
    simp only [entries]; ring

private theorem ext_mulVec {A B : Mat 6 ℝ} (h : ∀ V, M66.mulVec A V = M66.mulVec B V) : A = B := by
  rw [← Mat.toM_inj]
  refine Matrix.mulVec_injective (funext fun x => ?_)
  have := congrArg Vec.val (h ⟨x⟩)
  rwa [M66.val_mulVec, M66.val_mulVec] at this

/-- A rotation respects the cross product. -/
private theorem rot_skew {R : Mat 3 ℝ} (hR : IsRot R) (w y : Vec 3 ℝ) :
    M33.mulVec R (M33.mulVec (skew_from_vec w) y)
      = M33.mulVec (skew_from_vec (M33.mulVec R w)) (M33.mulVec R y) := by
  have h := SO3Rels.of_mem hR
  refine Vec.ext3 ?_ ?_ ?_ <;> simp only [entries]
  · linear_combination (w 1 * y 2 - w 2 * y 1) * h.k00 + (w 2 * y 0 - w 0 * y 2) * h.k01
      + (w 0 * y 1 - w 1 * y 0) * h.k02
  · linear_combination (w 1 * y 2 - w 2 * y 1) * h.k10 + (w 2 * y 0 - w 0 * y 2) * h.k11
      + (w 0 * y 1 - w 1 * y 0) * h.k12
  · linear_combination (w 1 * y 2 - w 2 * y 1) * h.k20 + (w 2 * y 0 - w 0 * y 2) * h.k21
      + (w 0 * y 1 - w 1 * y 0) * h.k22

private theorem skew_conj {R : Mat 3 ℝ} (hR : IsRot R) (w : Vec 3 ℝ) :
    M33.mul (M33.mul R (skew_from_vec w)) (M33.transpose R) = skew_from_vec (M33.mulVec R w) := by
  have h := SO3Rels.of_mem hR
  refine Mat.ext3 ?_ ?_ ?_ ?_ ?_ ?_ ?_ ?_ ?_ <;> simp only [entries]
  · ring
  · linear_combination w 0 * h.k20 + w 1 * h.k21 + w 2 * h.k22
  · linear_combination -(w 0 * h.k10 + w 1 * h.k11 + w 2 * h.k12)
  · linear_combination -(w 0 * h.k20 + w 1 * h.k21 + w 2 * h.k22)
  · ring
  · linear_combination w 0 * h.k00 + w 1 * h.k01 + w 2 * h.k02
  · linear_combination w 0 * h.k10 + w 1 * h.k11 + w 2 * h.k12
  · linear_combination -(w 0 * h.k00 + w 1 * h.k01 + w 2 * h.k02)
  · ring

private theorem adj_conj {R : Mat 3 ℝ} (hR : IsRot R) (p : Vec 3 ℝ) (V : Vec 6 ℝ) :
    M44.mul (M44.mul (homogeneous_from_rotation R p) (twist_to_se3 V))
      (homogeneous_inverse (homogeneous_from_rotation R p)) = twist_to_se3 (M66.mulVec (adj R p) V) := by
  obtain ⟨w, v, rfl⟩ := exists_join V
  have e1 (w v : Vec 3 ℝ) : twist_to_se3 (join w v) = se3_from_parts (skew_from_vec w) v :=
    Mat.ext4 rfl rfl rfl rfl rfl rfl rfl rfl rfl rfl rfl rfl rfl rfl rfl rfl
  have hp : get_parts_raw (homogeneous_from_rotation R p) = (R, p) :=
    (C74_homogeneous R R p p p).1
  have e2 : homogeneous_inverse (homogeneous_from_rotation R p)
      = homogeneous_from_rotation (M33.transpose R) (M33.mulVec (M33.neg (M33.transpose R)) p) := by
    unfold homogeneous_inverse
    rw [hp]
  rw [e2, e1, hom_mul_se3, se3_mul_hom, skew_conj hR, adj_mulVec, e1]
  congr 2
  have e3 : M33.mulVec (M33.mul R (skew_from_vec w)) (M33.mulVec (M33.neg (M33.transpose R)) p)
      = V3.neg (M33.mulVec (skew_from_vec (M33.mulVec R w)) p) := by
    rw [← skew_conj hR]
    refine Vec.ext3 ?_ ?_ ?_ <;> simp only [entries] <;> ring
  rw [e3]
  refine Vec.ext3 ?_ ?_ ?_ <;> simp only [entries] <;> ring

private theorem adj_mul {R1 : Mat 3 ℝ} (h1 : IsRot R1) (R2 : Mat 3 ℝ) (p1 p2 : Vec 3 ℝ) :
    adj (M33.mul R1 R2) (V3.add (M33.mulVec R1 p2) p1) = M66.mul (adj R1 p1) (adj R2 p2) := by
  refine ext_mulVec fun V => ?_
  obtain ⟨w, v, rfl⟩ := exists_join V
  have e : M66.mulVec (M66.mul (adj R1 p1) (adj R2 p2)) (join w v)
      = M66.mulVec (adj R1 p1) (M66.mulVec (adj R2 p2) (join w v)) := by
    refine Vec.ext ?_
    rw [M66.val_mulVec, M66.val_mulVec, M66.val_mulVec, M66.toM_mul, Matrix.mulVec_mulVec]
  rw [e, adj_mulVec, adj_mulVec, adj_mulVec, mulVec_mul, mulVec_mul]
  congr 1
  have d (A : Mat 3 ℝ) (x y : Vec 3 ℝ) :
      M33.mulVec A (V3.add x y) = V3.add (M33.mulVec A x) (M33.mulVec A y) := by
    refine Vec.ext3 ?_ ?_ ?_ <;> simp only [entries] <;> ring
  rw [d, rot_skew h1]
  refine Vec.ext3 ?_ ?_ ?_ <;> simp only [entries] <;> ring

private theorem adj_one : adj M33.one V3.zero = M66.one := by
  refine ext_mulVec fun V => ?_
  obtain ⟨w, v, rfl⟩ := exists_join V
  have e : M66.mulVec M66.one (join w v) = join w v := by
    refine Vec.ext ?_
    rw [M66.val_mulVec, M66.toM_one, Matrix.one_mulVec]
  rw [e, adj_mulVec]
  congr 1
  · refine Vec.ext3 ?_ ?_ ?_ <;> simp only [entries] <;> ring
  · refine Vec.ext3 ?_ ?_ ?_ <;> simp only [entries] <;> ring

theorem C83_adjoint [RealParams] (H G : Mat 4 ℝ) (hH : IsRigid H) (hG : IsRigid G) :
    ∃ AH AG AHG AI : Mat 6 ℝ, adjoint H = .ok AH ∧ adjoint G = .ok AG ∧
      adjoint (M44.mul H G) = .ok AHG ∧ adjoint (homogeneous_inverse H) = .ok AI ∧
      adjoint (M44.one : Mat 4 ℝ) = .ok M66.one ∧
      AHG = M66.mul AH AG ∧ M66.mul AH AI = M66.one ∧ M66.mul AI AH = M66.one ∧
      ∀ V, M44.mul (M44.mul H (twist_to_se3 V)) (homogeneous_inverse H)
        = twist_to_se3 (M66.mulVec AH V) := by
  obtain ⟨hi, hi1, hi2, -⟩ := C75_homogeneous_inverse H hH
  have key (A B : Mat 4 ℝ) (hA : IsRigid A) (hB : IsRigid B) :
      ∃ a b, adjoint A = .ok a ∧ adjoint B = .ok b ∧ adjoint (M44.mul A B) = .ok (M66.mul a b) := by
    obtain ⟨rA, eA⟩ := hA.parts
    obtain ⟨rB, eB⟩ := hB.parts
    refine ⟨_, _, adjoint_eq (get_parts_raw A).1 (get_parts_raw A).2 A rfl,
      adjoint_eq (get_parts_raw B).1 (get_parts_raw B).2 B rfl, ?_⟩
    obtain ⟨-, e, -⟩ := C74_homogeneous (get_parts_raw A).1 (get_parts_raw B).1
      (get_parts_raw A).2 (get_parts_raw B).2 V3.zero
    rw [← eA, ← eB] at e
    rw [e, adjoint_eq _ _ _ (C74_homogeneous _ (M33.one : Mat 3 ℝ) _ V3.zero V3.zero).1, adj_mul rA]
  have h1 : adjoint (M44.one : Mat 4 ℝ) = .ok M66.one := by
    rw [← adj_one]
    exact adjoint_eq _ _ _ (Prod.ext (Mat.ext3 rfl rfl rfl rfl rfl rfl rfl rfl rfl) (Vec.ext3 rfl rfl rfl))
  obtain ⟨a, b, ha, hb, hab⟩ := key H G hH hG
  obtain ⟨a', c, ha', hc, hac⟩ := key H _ hH hi
  obtain ⟨c', a'', hc', ha'', hca⟩ := key _ H hi hH
  obtain rfl := Except.ok.inj (ha.symm.trans ha')
  obtain rfl := Except.ok.inj (ha.symm.trans ha'')
  obtain rfl := Except.ok.inj (hc.symm.trans hc')
  refine ⟨a, b, _, c, ha, hb, hab, hc, h1, rfl, ?_, ?_, fun V => ?_⟩
  · rw [hi1, h1] at hac
    exact (Except.ok.inj hac).symm
  · rw [hi2, h1] at hca
    exact (Except.ok.inj hca).symm
  · obtain ⟨rH, eH⟩ := hH.parts
    obtain rfl := Except.ok.inj (ha.symm.trans (adjoint_eq (get_parts_raw H).1 (get_parts_raw H).2 H rfl))
    conv_lhs => rw [eH]
    exact adj_conj rH _ V

/-- Two screw motions. -/
example [RealParams] : IsRigid (homogeneous_from_rotation (rotx 1) ⟨![1, 2, 3]⟩) ∧
    IsRigid (homogeneous_from_rotation (rotz 2) ⟨![4, 5, 6]⟩) :=
  ⟨isRigid_from (isRot_rotx _) _, isRigid_from (isRot_rotz _) _⟩

end StaticMath

import Verif.Props.Transform
import Verif.Lemmas.ExpSeries
import Mathlib.Tactic.Module
import Mathlib.Analysis.Real.Pi.Bounds

/-!
# C78-C83: Rodrigues formula, exponential and logarithm of SO(3) and SE(3), adjoint map

The exponential series is Mathlib's `NormedSpace.exp` on `Matrix (Fin n) (Fin n) ℝ`.
-/

namespace StaticMath

open NormedSpace

/-! ## Helpers -/

theorem skew_cube (u : Vec 3 ℝ) (h : u 0 ^ 2 + u 1 ^ 2 + u 2 ^ 2 = 1) :
    M33.mul (M33.mul (skew_from_vec u) (skew_from_vec u)) (skew_from_vec u)
      = M33.neg (skew_from_vec u) := by
  refine Mat.ext3 ?_ ?_ ?_ ?_ ?_ ?_ ?_ ?_ ?_ <;> simp only [entries]
  · ring
  · linear_combination u 2 * h
  · linear_combination -u 1 * h
  · linear_combination -u 2 * h
  · ring
  · linear_combination u 0 * h
  · linear_combination u 1 * h
  · linear_combination -u 0 * h
  · ring

theorem skew_pow (u : Vec 3 ℝ) (h : u 0 ^ 2 + u 1 ^ 2 + u 2 ^ 2 = 1) :
    (skew_from_vec u).toM ^ 3 = -(skew_from_vec u).toM := by
  rw [pow_succ, sq, ← M33.toM_mul, ← M33.toM_mul, skew_cube u h, M33.toM_neg]

theorem rodrigues_toM [RealParams] (u : Vec 3 ℝ) (t : ℝ) :
    (rotation_from_axis_angle u t).toM = 1 + Real.sin t • (skew_from_vec u).toM
      + (1 - Real.cos t) • (skew_from_vec u).toM ^ 2 := by
  rw [rotation_from_axis_angle, M33.toM_add, M33.toM_add, M33.toM_one, M33.toM_smul, M33.toM_smul,
    M33.toM_mul, sq]
  rfl

theorem cubic_mul {A : Type} [Ring A] [Algebra ℝ A] (K : A) (h : K ^ 3 = -K)
    (a0 a1 a2 b0 b1 b2 : ℝ) :
    (a0 • (1 : A) + a1 • K + a2 • K ^ 2) * (b0 • (1 : A) + b1 • K + b2 • K ^ 2) =
      (a0 * b0) • (1 : A) + (a0 * b1 + a1 * b0 - a1 * b2 - a2 * b1) • K
        + (a0 * b2 + a1 * b1 + a2 * b0 - a2 * b2) • K ^ 2 := by
  have h4 : K ^ 2 * K ^ 2 = -K ^ 2 := by rw [← pow_add, pow_succ, h, neg_mul, ← sq]
  have h3 : K * K ^ 2 = -K := by rw [← pow_succ', h]
  have h3' : K ^ 2 * K = -K := by rw [← pow_succ, h]
  simp only [add_mul, mul_add, smul_mul_smul_comm, one_mul, mul_one, h4, h3, h3', ← sq K]
  module

/-! ## C78 Rodrigues -/

theorem C78_rodrigues [RealParams] (u : Vec 3 ℝ) (hu : u 0 ^ 2 + u 1 ^ 2 + u 2 ^ 2 = 1) (a b : ℝ) :
    (rotation_from_axis_angle u a).toM = exp (a • (skew_from_vec u).toM) ∧
    IsRot (rotation_from_axis_angle u a) ∧
    M33.mulVec (rotation_from_axis_angle u a) u = u ∧
    M33.mul (rotation_from_axis_angle u a) (rotation_from_axis_angle u b)
      = rotation_from_axis_angle u (a + b) := by
  have hK := skew_pow u hu
  have hadd (a b : ℝ) : M33.mul (rotation_from_axis_angle u a) (rotation_from_axis_angle u b)
      = rotation_from_axis_angle u (a + b) := by
    rw [← Mat.toM_inj, M33.toM_mul, rodrigues_toM, rodrigues_toM, rodrigues_toM]
    have := cubic_mul (skew_from_vec u).toM hK 1 (Real.sin a) (1 - Real.cos a) 1 (Real.sin b)
      (1 - Real.cos b)
    simp only [one_smul] at this
    rw [this, Real.sin_add, Real.cos_add]
    module
  refine ⟨?_, ?_, ?_, hadd a b⟩
  · rw [rodrigues_toM, exp_of_pow_three _ hK]
  · have ht (a : ℝ) : M33.transpose (rotation_from_axis_angle u a) = rotation_from_axis_angle u (-a) := by
      refine Mat.ext3 ?_ ?_ ?_ ?_ ?_ ?_ ?_ ?_ ?_ <;>
        simp only [rotation_from_axis_angle, entries, rfloat_sin, rfloat_cos, Real.sin_neg,
          Real.cos_neg] <;> ring
    have h0 : rotation_from_axis_angle u 0 = M33.one := by
      rw [← Mat.toM_inj, rodrigues_toM, M33.toM_one]
      simp
    have ho (a : ℝ) : (rotation_from_axis_angle u a).toM * (rotation_from_axis_angle u a).toM.transpose = 1 := by
      rw [← M33.toM_transpose, ht, ← M33.toM_mul, hadd, add_neg_cancel, h0, M33.toM_one]
    refine (mem_SO3_iff _).2 ⟨ho a, ?_⟩
    have e := hadd (a / 2) (a / 2)
    rw [add_halves] at e
    rw [← e, M33.toM_mul, Matrix.det_mul]
    have := congrArg Matrix.det (ho (a / 2))
    rwa [Matrix.det_mul, Matrix.det_transpose, Matrix.det_one] at this
  · refine Vec.ext3 ?_ ?_ ?_ <;> simp only [rotation_from_axis_angle, entries] <;> ring

example : (⟨![3 / 5, 0, 4 / 5]⟩ : Vec 3 ℝ) 0 ^ 2 + (⟨![3 / 5, 0, 4 / 5]⟩ : Vec 3 ℝ) 1 ^ 2
    + (⟨![3 / 5, 0, 4 / 5]⟩ : Vec 3 ℝ) 2 ^ 2 = 1 := by
  change (3 / 5 : ℝ) ^ 2 + 0 ^ 2 + (4 / 5) ^ 2 = 1
  norm_num

/-! ## C79 matrix_exponential -/

theorem unit_of_div [RealParams] (w : Vec 3 ℝ) (h : 0 < V3.norm2 w) :
    (w 0 / V3.norm2 w) ^ 2 + (w 1 / V3.norm2 w) ^ 2 + (w 2 / V3.norm2 w) ^ 2 = 1 := by
  have := V3.norm2_sq w
  rw [div_pow, div_pow, div_pow, ← add_div, ← add_div, ← this, div_self (pow_ne_zero 2 h.ne')]

/-- `matrix_exponential` is the Rodrigues formula. -/
theorem mexp_eq [P : RealParams] (w : Vec 3 ℝ) (h : P.eps ≤ V3.norm2 w) :
    matrix_exponential (skew_from_vec w)
      = .ok (rotation_from_axis_angle ⟨fun i => w i / V3.norm2 w⟩ (V3.norm2 w)) := by
  have hpos : 0 < V3.norm2 w := lt_of_lt_of_le P.eps_pos h
  have hz : nearly_zero (V3.norm2 w) = false := by
    rw [nearly_zero_eq, abs_of_pos hpos]; simpa using h
  have hw : skew_to_vec (skew_from_vec w) = w := Vec.ext3 rfl rfl rfl
  have hd : M33.sdiv (skew_from_vec w) (V3.norm2 w)
      = skew_from_vec ⟨fun i => w i / V3.norm2 w⟩ := by
    refine Mat.ext3 ?_ ?_ ?_ ?_ ?_ ?_ ?_ ?_ ?_ <;> simp only [entries, zero_div, neg_div]
  unfold matrix_exponential
  rw [hw]
  simp only [axis_angle_eq, if_neg hpos.ne', hz, rotation_from_axis_angle, ← hd]
  rfl

private theorem mexp_small [P : RealParams] (S : Mat 3 ℝ) (h : V3.norm2 (skew_to_vec S) < P.eps) :
    matrix_exponential S = .ok M33.one := by
  have hz : nearly_zero (V3.norm2 (skew_to_vec S)) = true := by
    rw [nearly_zero_eq, abs_of_nonneg (V3.norm2_nonneg _)]; simpa using h
  unfold matrix_exponential
  simp only [hz]
  rfl

theorem skew_smul (u : Vec 3 ℝ) (t : ℝ) :
    (skew_from_vec (V3.smul u t)).toM = t • (skew_from_vec u).toM := by
  rw [← M33.toM_smul, Mat.toM_inj]
  refine Mat.ext3 ?_ ?_ ?_ ?_ ?_ ?_ ?_ ?_ ?_ <;> simp only [entries, zero_mul, neg_mul]

theorem smul_div_norm [RealParams] (w : Vec 3 ℝ) (h : 0 < V3.norm2 w) :
    V3.smul ⟨fun i => w i / V3.norm2 w⟩ (V3.norm2 w) = w :=
  Vec.ext (funext fun i => by rw [V3.smul_apply]; exact div_mul_cancel₀ _ h.ne')

/-- The vector of an antisymmetric matrix is `(S 2 1, S 0 2, S 1 0)`. -/
theorem C79_matrix_exponential [P : RealParams] (S : Mat 3 ℝ) (hS : ∀ i j, S i j = -S j i) :
    (√(S 2 1 ^ 2 + S 0 2 ^ 2 + S 1 0 ^ 2) < P.eps → matrix_exponential S = .ok M33.one) ∧
    ((S = M33.zero ∨ P.eps ≤ √(S 2 1 ^ 2 + S 0 2 ^ 2 + S 1 0 ^ 2)) →
      ∃ E, matrix_exponential S = .ok E ∧ IsRot E ∧ E.toM = exp S.toM) := by
  have hn : √(S 2 1 ^ 2 + S 0 2 ^ 2 + S 1 0 ^ 2) = V3.norm2 (skew_to_vec S) :=
    (V3.norm2_eq_sqrt (skew_to_vec S)).symm
  have hd (i : Fin 3) : S i i = 0 := by linarith [hS i i]
  obtain ⟨w, rfl⟩ : ∃ w, S = skew_from_vec w :=
    ⟨_, ((C77_skew (skew_to_vec S) V3.zero S).2.2.2 hS hd).symm⟩
  have hw : skew_to_vec (skew_from_vec w) = w := Vec.ext3 rfl rfl rfl
  rw [hn]
  refine ⟨fun h => mexp_small _ h, fun h => ?_⟩
  rcases h with h | h
  · refine ⟨M33.one, mexp_small _ ?_, ?_, ?_⟩
    · rw [h, (V3.norm2_zero (skew_to_vec M33.zero)).2 (Vec.ext3 rfl rfl rfl)]
      exact P.eps_pos
    · rw [IsRot, M33.toM_one]; exact one_mem _
    · rw [h, M33.toM_one, M33.toM_zero, NormedSpace.exp_zero]
  · rw [hw] at h
    have hpos : 0 < V3.norm2 w := lt_of_lt_of_le P.eps_pos h
    obtain ⟨h1, h2, -⟩ := C78_rodrigues ⟨fun i => w i / V3.norm2 w⟩ (unit_of_div w hpos)
      (V3.norm2 w) 0
    refine ⟨_, mexp_eq w h, h2, h1.trans ?_⟩
    rw [← skew_smul, smul_div_norm w hpos]

/-- An antisymmetric matrix with a vector of norm at least EPSILON. -/
example [P : RealParams] : (∀ i j, skew_from_vec (⟨![0, 0, 1]⟩ : Vec 3 ℝ) i j
      = -skew_from_vec (⟨![0, 0, 1]⟩ : Vec 3 ℝ) j i) ∧
    P.eps ≤ √(skew_from_vec (⟨![0, 0, 1]⟩ : Vec 3 ℝ) 2 1 ^ 2 + skew_from_vec (⟨![0, 0, 1]⟩ : Vec 3 ℝ) 0 2 ^ 2
      + skew_from_vec (⟨![0, 0, 1]⟩ : Vec 3 ℝ) 1 0 ^ 2) := by
  constructor
  · intro i j
    fin_cases i <;> fin_cases j <;> simp [entries]
  · simp only [entries]
    have := P.eps_le
    norm_num at this ⊢
    linarith

/-! ## C80 matrix_log -/

/-- The vector of the antisymmetric part of a rotation, and the identities it satisfies:
`w_i w_j = (1 + tr) (r_ij + r_ji - (tr - 1) δ_ij)`. -/
theorem rot_vec {r : Fin 3 → Fin 3 → ℝ} (h : SO3Rels r) :
    (r 2 1 - r 1 2) ^ 2 = (1 + (r 0 0 + r 1 1 + r 2 2)) * (1 + r 0 0 - r 1 1 - r 2 2) ∧
    (r 0 2 - r 2 0) ^ 2 = (1 + (r 0 0 + r 1 1 + r 2 2)) * (1 - r 0 0 + r 1 1 - r 2 2) ∧
    (r 1 0 - r 0 1) ^ 2 = (1 + (r 0 0 + r 1 1 + r 2 2)) * (1 - r 0 0 - r 1 1 + r 2 2) ∧
    (r 2 1 - r 1 2) * (r 0 2 - r 2 0) = (1 + (r 0 0 + r 1 1 + r 2 2)) * (r 0 1 + r 1 0) ∧
    (r 2 1 - r 1 2) * (r 1 0 - r 0 1) = (1 + (r 0 0 + r 1 1 + r 2 2)) * (r 0 2 + r 2 0) ∧
    (r 0 2 - r 2 0) * (r 1 0 - r 0 1) = (1 + (r 0 0 + r 1 1 + r 2 2)) * (r 1 2 + r 2 1) := by
  obtain ⟨r00, r11, r22, r01, r02, r12, c00, c11, c22, c01, c02, c12, k00, k01, k02, k10, k11, k12,
    k20, k21, k22, -⟩ := h
  refine ⟨?_, ?_, ?_, ?_, ?_, ?_⟩ <;> linarith

theorem trace3 (R : Mat 3 ℝ) : M33.trace R = R 0 0 + R 1 1 + R 2 2 := by
  rw [M33.trace_eq, Fin.sum_univ_three]

private theorem trace_bounds {r : Fin 3 → Fin 3 → ℝ} (h : SO3Rels r) :
    -1 ≤ r 0 0 + r 1 1 + r 2 2 ∧ r 0 0 + r 1 1 + r 2 2 ≤ 3 := by
  obtain ⟨h1, h2, h3, -⟩ := rot_vec h
  have le1 (x y z : ℝ) (h : x * x + y * y + z * z = 1) : x ≤ 1 ∧ y ≤ 1 ∧ z ≤ 1 := by
    refine ⟨?_, ?_, ?_⟩ <;> nlinarith [sq_nonneg x, sq_nonneg y, sq_nonneg z]
  have a := (le1 _ _ _ h.r00).1
  have b := (le1 _ _ _ h.r11).2.1
  have c := (le1 _ _ _ h.r22).2.2
  refine ⟨?_, by linarith⟩
  by_contra hlt
  rw [not_le] at hlt
  have hs : (1 + (r 0 0 + r 1 1 + r 2 2)) * (3 - (r 0 0 + r 1 1 + r 2 2)) =
      (r 2 1 - r 1 2) ^ 2 + (r 0 2 - r 2 0) ^ 2 + (r 1 0 - r 0 1) ^ 2 := by linarith
  have : 0 ≤ (1 + (r 0 0 + r 1 1 + r 2 2)) * (3 - (r 0 0 + r 1 1 + r 2 2)) := by
    rw [hs]; positivity
  have : (1 + (r 0 0 + r 1 1 + r 2 2)) * (3 - (r 0 0 + r 1 1 + r 2 2)) < 0 :=
    mul_neg_of_neg_of_pos (by linarith) (by linarith)
  linarith

theorem unit_bounds {x y z : ℝ} (h : x * x + y * y + z * z = 1) :
    (0 ≤ 1 + x ∧ 0 ≤ 1 + y ∧ 0 ≤ 1 + z) := by
  refine ⟨?_, ?_, ?_⟩ <;> nlinarith [sq_nonneg x, sq_nonneg y, sq_nonneg z]

/-- The half turns that reach the third half-turn branch of `matrix_log`: half turns about an axis
that is nearly the x axis. -/
def NearXHalfTurn [P : RealParams] (R : Mat 3 ℝ) : Prop :=
  R 0 0 + R 1 1 + R 2 2 = -1 ∧ 1 + R 2 2 < P.eps ∧ 1 + R 1 1 < P.eps

/-- `matrix_log` in closed form: the identity, or angle times unit axis. -/
theorem log_one [P : RealParams] (R : Mat 3 ℝ) (hR : IsRot R)
    (h3 : 3 ≤ R 0 0 + R 1 1 + R 2 2) : R = M33.one ∧ matrix_log R = M33.zero := by
  have h := SO3Rels.of_mem hR
  constructor
  · have le1 (x y z : ℝ) (h : x * x + y * y + z * z = 1) : x ≤ 1 ∧ y ≤ 1 ∧ z ≤ 1 := by
      refine ⟨?_, ?_, ?_⟩ <;> nlinarith [sq_nonneg x, sq_nonneg y, sq_nonneg z]
    have a := (le1 _ _ _ h.r00).1
    have b := (le1 _ _ _ h.r11).2.1
    have c := (le1 _ _ _ h.r22).2.2
    have e00 : R 0 0 = 1 := by linarith
    have e11 : R 1 1 = 1 := by linarith
    have e22 : R 2 2 = 1 := by linarith
    have z (x y : ℝ) (h : x * x + y * y = 0) : x = 0 ∧ y = 0 :=
      ⟨by nlinarith [sq_nonneg x, sq_nonneg y], by nlinarith [sq_nonneg x, sq_nonneg y]⟩
    have h00 := h.r00; have h11 := h.r11; have h22 := h.r22
    rw [e00] at h00; rw [e11] at h11; rw [e22] at h22
    obtain ⟨e01, e02⟩ := z (R 0 1) (R 0 2) (by linarith)
    obtain ⟨e10, e12⟩ := z (R 1 0) (R 1 2) (by linarith)
    obtain ⟨e20, e21⟩ := z (R 2 0) (R 2 1) (by linarith)
    exact Mat.ext3 e00 e01 e02 e10 e11 e12 e20 e21 e22
  · unfold matrix_log
    simp only [trace3, one_add_one_eq_two, rord_le]
    rw [if_pos (by simp only [decide_eq_true_eq]; linarith)]

private theorem half_turn [RealParams] (R : Mat 3 ℝ) (u : Vec 3 ℝ)
    (h00 : 2 * u 0 ^ 2 = 1 + R 0 0) (h11 : 2 * u 1 ^ 2 = 1 + R 1 1) (h22 : 2 * u 2 ^ 2 = 1 + R 2 2)
    (h01 : 2 * (u 0 * u 1) = R 0 1) (h02 : 2 * (u 0 * u 2) = R 0 2) (h12 : 2 * (u 1 * u 2) = R 1 2)
    (s01 : R 1 0 = R 0 1) (s02 : R 2 0 = R 0 2) (s12 : R 2 1 = R 1 2)
    (ht : R 0 0 + R 1 1 + R 2 2 = -1) :
    u 0 ^ 2 + u 1 ^ 2 + u 2 ^ 2 = 1 ∧ R = rotation_from_axis_angle u Real.pi := by
  refine ⟨by linarith, ?_⟩
  refine Mat.ext3 ?_ ?_ ?_ ?_ ?_ ?_ ?_ ?_ ?_ <;>
    simp only [rotation_from_axis_angle, entries, rfloat_sin, rfloat_cos, Real.sin_pi,
      Real.cos_pi, s01, s02, s12] <;> linarith

private theorem log_half [P : RealParams] (R : Mat 3 ℝ) (hR : IsRot R)
    (hx : ¬NearXHalfTurn R)
    (hh : R 0 0 + R 1 1 + R 2 2 = -1) :
    ∃ (u : Vec 3 ℝ) (t : ℝ), t = Real.arccos ((M33.trace R - 1) / 2) ∧ 0 < t ∧ t ≤ Real.pi ∧
      u 0 ^ 2 + u 1 ^ 2 + u 2 ^ 2 = 1 ∧ matrix_log R = skew_from_vec (V3.smul u t) ∧
      R = rotation_from_axis_angle u t := by
  have h := SO3Rels.of_mem hR
  obtain ⟨w00, w11, w22, w01, w02, w12⟩ := rot_vec h
  obtain ⟨tm, -⟩ := trace_bounds h
  rw [trace3]
  have sq0 (x : ℝ) (hx : x ^ 2 = 0) : x = 0 := (pow_eq_zero_iff two_ne_zero).1 hx
  have hh' : 1 + (R 0 0 + R 1 1 + R 2 2) = 0 := by linarith
  have s12 : R 2 1 = R 1 2 := sub_eq_zero.1 (sq0 _ (by rw [w00, hh', zero_mul]))
  have s02 : R 2 0 = R 0 2 := (sub_eq_zero.1 (sq0 _ (by rw [w11, hh', zero_mul]))).symm
  have s01 : R 1 0 = R 0 1 := sub_eq_zero.1 (sq0 _ (by rw [w22, hh', zero_mul]))
  have k00 := h.k00; have k01 := h.k01; have k02 := h.k02
  have k11 := h.k11; have k12 := h.k12; have k22 := h.k22
  simp only [s12, s02, s01] at k00 k01 k02 k11 k12 k22
  have q01 : R 0 1 ^ 2 = (1 + R 0 0) * (1 + R 1 1) := by linarith
  have q02 : R 0 2 ^ 2 = (1 + R 0 0) * (1 + R 2 2) := by linarith
  have q12 : R 1 2 ^ 2 = (1 + R 1 1) * (1 + R 2 2) := by linarith
  have p02 : R 0 1 * R 1 2 = (1 + R 1 1) * R 0 2 := by linarith
  have p01 : R 0 2 * R 1 2 = (1 + R 2 2) * R 0 1 := by linarith
  have ht : Real.arccos ((R 0 0 + R 1 1 + R 2 2 - 1) / 2) = Real.pi := by
    rw [hh, show ((-1 : ℝ) - 1) / 2 = -1 by norm_num, Real.arccos_neg_one]
  rw [ht]
  unfold matrix_log
  simp only [trace3, one_add_one_eq_two, rord_le, nearly_zero_eq, rfloat_sqrt, rfloat_pi]
  rw [if_neg (by rw [hh]; norm_num), if_pos (by rw [hh]; norm_num)]
  have g1 := (unit_bounds h.r11).2.1
  have g2 := (unit_bounds h.r22).2.2
  by_cases h22 : |1 + R 2 2| < P.eps
  · rw [if_neg (by simp [h22])]
    by_cases h11 : |1 + R 1 1| < P.eps
    · exfalso
      rw [abs_of_nonneg g1] at h11
      rw [abs_of_nonneg g2] at h22
      exact hx ⟨hh, h22, h11⟩
    · rw [if_pos (by simp [h11])]
      have hpos : 0 < 1 + R 1 1 := by
        rw [abs_of_nonneg g1, not_lt] at h11
        exact lt_of_lt_of_le P.eps_pos h11
      obtain ⟨k, hk⟩ : ∃ k, k = 1 / √(2 * (1 + R 1 1)) := ⟨_, rfl⟩
      have hk2 : k ^ 2 * (2 * (1 + R 1 1)) = 1 := by
        rw [hk, div_pow, Real.sq_sqrt (by linarith)]; field_simp
      rw [← hk]
      refine ⟨_, _, rfl, Real.pi_pos, le_rfl, ?_, rfl, ?_⟩
      all_goals
        have := half_turn R (V3.smul ⟨![R 0 1, 1 + R 1 1, R 2 1]⟩ k)
        simp only [entries, s12] at this
        have := this (by linear_combination (1 + R 0 0) * hk2 + 2 * k ^ 2 * q01)
          (by linear_combination (1 + R 1 1) * hk2)
          (by linear_combination (1 + R 2 2) * hk2 + 2 * k ^ 2 * q12)
          (by linear_combination R 0 1 * hk2)
          (by linear_combination R 0 2 * hk2 + 2 * k ^ 2 * p02)
          (by linear_combination R 1 2 * hk2)
          s01 s02 trivial hh
      · simp only [entries, s12]; exact this.1
      · rw [s12]; exact this.2
  · rw [if_pos (by simp [h22])]
    have hpos : 0 < 1 + R 2 2 := by
      rw [abs_of_nonneg g2, not_lt] at h22
      exact lt_of_lt_of_le P.eps_pos h22
    obtain ⟨k, hk⟩ : ∃ k, k = 1 / √(2 * (1 + R 2 2)) := ⟨_, rfl⟩
    have hk2 : k ^ 2 * (2 * (1 + R 2 2)) = 1 := by
      rw [hk, div_pow, Real.sq_sqrt (by linarith)]; field_simp
    rw [← hk]
    refine ⟨_, _, rfl, Real.pi_pos, le_rfl, ?_, rfl, ?_⟩
    all_goals
      have := half_turn R (V3.smul ⟨![R 0 2, R 1 2, 1 + R 2 2]⟩ k)
      simp only [entries] at this
      have := this (by linear_combination (1 + R 0 0) * hk2 + 2 * k ^ 2 * q02)
        (by linear_combination (1 + R 1 1) * hk2 + 2 * k ^ 2 * q12)
        (by linear_combination (1 + R 2 2) * hk2)
        (by linear_combination R 0 1 * hk2 + 2 * k ^ 2 * p01)
        (by linear_combination R 0 2 * hk2)
        (by linear_combination R 1 2 * hk2)
        s01 s02 s12 hh
    · simp only [entries]; exact this.1
    · exact this.2

private theorem log_generic [P : RealParams] (R : Mat 3 ℝ) (hR : IsRot R)
    (h3 : R 0 0 + R 1 1 + R 2 2 < 3) (hh : R 0 0 + R 1 1 + R 2 2 ≠ -1) :
    ∃ (u : Vec 3 ℝ) (t : ℝ), t = Real.arccos ((M33.trace R - 1) / 2) ∧ 0 < t ∧ t ≤ Real.pi ∧
      u 0 ^ 2 + u 1 ^ 2 + u 2 ^ 2 = 1 ∧ matrix_log R = skew_from_vec (V3.smul u t) ∧
      R = rotation_from_axis_angle u t := by
  have h := SO3Rels.of_mem hR
  obtain ⟨w00, w11, w22, w01, w02, w12⟩ := rot_vec h
  obtain ⟨tm, -⟩ := trace_bounds h
  rw [trace3]
  have tm' : -1 < R 0 0 + R 1 1 + R 2 2 := lt_of_le_of_ne tm (Ne.symm hh)
  obtain ⟨c, hc⟩ : ∃ c, c = (R 0 0 + R 1 1 + R 2 2 - 1) / 2 := ⟨_, rfl⟩
  have hc1 : -1 < c := by rw [hc]; linarith
  have hc2 : c < 1 := by rw [hc]; linarith
  obtain ⟨t, ht⟩ : ∃ t, t = Real.arccos c := ⟨_, rfl⟩
  have hcos : Real.cos t = c := by rw [ht, Real.cos_arccos hc1.le hc2.le]
  have htpos : 0 < t := by rw [ht]; exact Real.arccos_pos.2 hc2
  have htpi : t ≤ Real.pi := by rw [ht]; exact Real.arccos_le_pi c
  have hs2 : Real.sin t ^ 2 = 1 - c ^ 2 := by rw [Real.sin_sq, hcos]
  have hspos : 0 < Real.sin t := by
    have h0 : 0 ≤ Real.sin t := Real.sin_nonneg_of_nonneg_of_le_pi htpos.le htpi
    have : 0 < Real.sin t ^ 2 := by rw [hs2]; nlinarith
    exact lt_of_le_of_ne h0 fun h => by rw [← h] at this; norm_num at this
  obtain ⟨k, hk⟩ : ∃ k, k = 1 / (2 * Real.sin t) := ⟨_, rfl⟩
  have hk1 : k * (2 * Real.sin t) = 1 := by rw [hk]; field_simp
  have hkc : k ^ 2 * (1 - c) * (1 + (R 0 0 + R 1 1 + R 2 2)) = 1 / 2 := by
    have : k ^ 2 * (4 * Real.sin t ^ 2) = 1 := by
      rw [show k ^ 2 * (4 * Real.sin t ^ 2) = (k * (2 * Real.sin t)) ^ 2 by ring, hk1, one_pow]
    rw [hs2] at this
    rw [show R 0 0 + R 1 1 + R 2 2 = 2 * c + 1 by rw [hc]; ring]
    linear_combination this / 2
  refine ⟨V3.smul ⟨![R 2 1 - R 1 2, R 0 2 - R 2 0, R 1 0 - R 0 1]⟩ k, t, by rw [ht, hc], htpos,
    htpi, ?_, ?_, ?_⟩
  · simp only [entries]
    have : k ^ 2 * (4 * Real.sin t ^ 2) = 1 := by
      rw [show k ^ 2 * (4 * Real.sin t ^ 2) = (k * (2 * Real.sin t)) ^ 2 by ring, hk1, one_pow]
    rw [hs2, hc] at this
    linear_combination k ^ 2 * (w00 + w11 + w22) + this
  · unfold matrix_log
    simp only [trace3, one_add_one_eq_two, rord_le, rfloat_acos, rfloat_sin]
    rw [← hc, if_neg (by simp only [decide_eq_true_eq]; linarith),
      if_neg (by simp only [decide_eq_true_eq]; linarith), ← ht]
    have e : t / 2 / Real.sin t = k * t := by rw [hk]; field_simp
    rw [e]
    refine Mat.ext3 ?_ ?_ ?_ ?_ ?_ ?_ ?_ ?_ ?_ <;> simp only [entries] <;> ring
  · have htr : R 0 0 + R 1 1 + R 2 2 = 2 * c + 1 := by rw [hc]; ring
    refine Mat.ext3 ?_ ?_ ?_ ?_ ?_ ?_ ?_ ?_ ?_ <;>
      simp only [rotation_from_axis_angle, entries, rfloat_sin, rfloat_cos, hcos]
    · linear_combination (1 - c) * k ^ 2 * (w11 + w22) + 2 * (1 - R 0 0) * hkc
    · linear_combination -(1 - c) * k ^ 2 * w01 - (R 0 1 + R 1 0) * hkc - (R 0 1 - R 1 0) / 2 * hk1
    · linear_combination -(1 - c) * k ^ 2 * w02 - (R 0 2 + R 2 0) * hkc - (R 0 2 - R 2 0) / 2 * hk1
    · linear_combination -(1 - c) * k ^ 2 * w01 - (R 0 1 + R 1 0) * hkc + (R 0 1 - R 1 0) / 2 * hk1
    · linear_combination (1 - c) * k ^ 2 * (w00 + w22) + 2 * (1 - R 1 1) * hkc
    · linear_combination -(1 - c) * k ^ 2 * w12 - (R 1 2 + R 2 1) * hkc - (R 1 2 - R 2 1) / 2 * hk1
    · linear_combination -(1 - c) * k ^ 2 * w02 - (R 0 2 + R 2 0) * hkc + (R 0 2 - R 2 0) / 2 * hk1
    · linear_combination -(1 - c) * k ^ 2 * w12 - (R 1 2 + R 2 1) * hkc + (R 1 2 - R 2 1) / 2 * hk1
    · linear_combination (1 - c) * k ^ 2 * (w00 + w11) + 2 * (1 - R 2 2) * hkc

theorem log_form [P : RealParams] (R : Mat 3 ℝ) (hR : IsRot R)
    (h3 : R 0 0 + R 1 1 + R 2 2 < 3) (hx : ¬NearXHalfTurn R) :
    ∃ (u : Vec 3 ℝ) (t : ℝ), t = Real.arccos ((M33.trace R - 1) / 2) ∧ 0 < t ∧ t ≤ Real.pi ∧
      u 0 ^ 2 + u 1 ^ 2 + u 2 ^ 2 = 1 ∧ matrix_log R = skew_from_vec (V3.smul u t) ∧
      R = rotation_from_axis_angle u t := by
  by_cases hh : R 0 0 + R 1 1 + R 2 2 = -1
  · exact log_half R hR hx hh
  · exact log_generic R hR h3 hh

theorem norm_unit_smul [RealParams] (u : Vec 3 ℝ) (t : ℝ) (ht : 0 ≤ t)
    (hu : u 0 ^ 2 + u 1 ^ 2 + u 2 ^ 2 = 1) : V3.norm2 (V3.smul u t) = t := by
  rw [V3.norm2_eq_sqrt]
  simp only [entries]
  rw [show (u 0 * t) ^ 2 + (u 1 * t) ^ 2 + (u 2 * t) ^ 2
    = (u 0 ^ 2 + u 1 ^ 2 + u 2 ^ 2) * t ^ 2 by ring, hu, one_mul, Real.sqrt_sq ht]

/-- `matrix_exponential` of angle times unit axis. -/
theorem mexp_unit [P : RealParams] (u : Vec 3 ℝ) (t : ℝ) (ht : P.eps ≤ t)
    (hu : u 0 ^ 2 + u 1 ^ 2 + u 2 ^ 2 = 1) :
    matrix_exponential (skew_from_vec (V3.smul u t)) = .ok (rotation_from_axis_angle u t) := by
  have hpos : 0 < t := lt_of_lt_of_le P.eps_pos ht
  have hn := norm_unit_smul u t hpos.le hu
  rw [mexp_eq _ (by rwa [hn]), hn]
  congr 2
  exact Vec.ext (funext fun i => by
    change V3.smul u t i / t = u i
    rw [V3.smul_apply, mul_div_cancel_right₀ _ hpos.ne'])

/-- `matrix_log` is a logarithm for every rotation outside `NearXHalfTurn`; `matrix_exponential`
brings it back exactly when the rotation angle is zero or at least EPSILON.

Missing: the half turns in `NearXHalfTurn`, where the third half-turn branch uses `one + r[(1, 0)]`
in place of `r[(1, 0)]`, and rotation angles below EPSILON, which `matrix_exponential` sends to the
identity. Both are disagreements of the code with the property, see the two theorems below. -/
theorem C80_matrix_log_partial [P : RealParams] (R : Mat 3 ℝ) (hR : IsRot R) :
    (∀ i j, matrix_log R i j = -matrix_log R j i) ∧
    (¬NearXHalfTurn R → exp (matrix_log R).toM = R.toM ∧
      (R = M33.one ∨ P.eps ≤ Real.arccos ((R 0 0 + R 1 1 + R 2 2 - 1) / 2) →
        matrix_exponential (matrix_log R) = .ok R)) := by
  constructor
  · have hs (w : Vec 3 ℝ) (i j : Fin 3) : skew_from_vec w i j = -skew_from_vec w j i := by
      fin_cases i <;> fin_cases j <;> simp [entries]
    intro i j
    unfold matrix_log
    simp only
    split
    · rw [M33.zero_apply, M33.zero_apply, neg_zero]
    · split
      · split
        · exact hs _ i j
        · split
          · exact hs _ i j
          · exact hs _ i j
      · rw [M33.smul_apply, M33.smul_apply, M33.sub_apply, M33.sub_apply, M33.transpose_apply,
          M33.transpose_apply]
        ring
  · intro hx
    rcases le_or_gt 3 (R 0 0 + R 1 1 + R 2 2) with h3 | h3
    · obtain ⟨h1, h2⟩ := log_one R hR h3
      rw [h2, h1]
      refine ⟨by rw [M33.toM_zero, M33.toM_one, NormedSpace.exp_zero], fun _ => mexp_small _ ?_⟩
      rw [(V3.norm2_zero (skew_to_vec M33.zero)).2 (Vec.ext3 rfl rfl rfl)]
      exact P.eps_pos
    · obtain ⟨u, t, ht, hpos, -, hu, hl, hr⟩ := log_form R hR h3 hx
      refine ⟨?_, fun h => ?_⟩
      · rw [hl, skew_smul, ← (C78_rodrigues u hu t 0).1, ← hr]
      · rw [hl, mexp_unit u t ?_ hu, ← hr]
        rcases h with h | h
        · rw [h] at h3
          simp only [entries] at h3
          norm_num at h3
        · rwa [ht, trace3]

/-- A half turn about z meets the hypotheses. -/
example [P : RealParams] : IsRot (rotz Real.pi) ∧ ¬NearXHalfTurn (rotz Real.pi) ∧
    P.eps ≤ Real.arccos ((rotz Real.pi 0 0 + rotz Real.pi 1 1 + rotz Real.pi 2 2 - 1) / 2) := by
  have := P.eps_le
  refine ⟨isRot_rotz _, fun h => ?_, ?_⟩
  · have h := h.2.1
    simp only [entries] at h
    norm_num at h this
    linarith
  · simp only [entries, rfloat_cos, Real.cos_pi]
    rw [show ((-1 : ℝ) + -1 + 1 - 1) / 2 = -1 by norm_num, Real.arccos_neg_one]
    have h3 := Real.pi_gt_three
    norm_num at this
    linarith

private theorem log_rotx_pi [P : RealParams] :
    matrix_log (rotx Real.pi) = skew_from_vec ⟨![Real.pi, Real.pi / 2, 0]⟩ := by
  have e00 : rotx (T := ℝ) Real.pi 0 0 = 1 := rfl
  have e10 : rotx (T := ℝ) Real.pi 1 0 = 0 := rfl
  have e20 : rotx (T := ℝ) Real.pi 2 0 = 0 := rfl
  have e11 : rotx (T := ℝ) Real.pi 1 1 = -1 := Real.cos_pi
  have e22 : rotx (T := ℝ) Real.pi 2 2 = -1 := Real.cos_pi
  unfold matrix_log
  simp only [trace3, rord_le, nearly_zero_eq, e00, e10, e20, e11, e22, rfloat_sqrt, rfloat_pi]
  rw [if_neg (by norm_num), if_pos (by norm_num), if_neg (by simp [P.eps_pos]),
    if_neg (by simp [P.eps_pos])]
  have hs : √(((1 : ℝ) + 1) * (1 + 1)) = 2 := by
    rw [Real.sqrt_eq_iff_mul_self_eq_of_pos] <;> norm_num
  rw [hs]
  refine congrArg skew_from_vec (Vec.ext3 ?_ ?_ ?_) <;> simp only [entries] <;> ring

/-- The half turn about the x axis: the logarithm is wrong. -/
theorem C80_matrix_log_false [RealParams] :
    ∃ R, IsRot R ∧ exp (matrix_log R).toM ≠ R.toM ∧ matrix_exponential (matrix_log R) ≠ .ok R := by
  refine ⟨rotx Real.pi, isRot_rotx _, ?_⟩
  rw [log_rotx_pi]
  obtain ⟨w, hw⟩ : ∃ w : Vec 3 ℝ, w = ⟨![Real.pi, Real.pi / 2, 0]⟩ := ⟨_, rfl⟩
  have hpi := Real.pi_pos
  have hn : Real.pi ≤ V3.norm2 w := by
    rw [V3.norm2_eq_sqrt, hw]
    simp only [entries]
    exact Real.le_sqrt_of_sq_le (by nlinarith)
  have hpos : 0 < V3.norm2 w := lt_of_lt_of_le hpi hn
  have hbig : RealParams.eps ≤ V3.norm2 w := by
    have := RealParams.eps_le
    have := Real.pi_gt_three
    norm_num at *
    linarith
  obtain ⟨h1, -, h3, -⟩ := C78_rodrigues ⟨fun i => w i / V3.norm2 w⟩ (unit_of_div w hpos)
    (V3.norm2 w) 0
  rw [← skew_smul, smul_div_norm w hpos] at h1
  have hne : rotation_from_axis_angle ⟨fun i => w i / V3.norm2 w⟩ (V3.norm2 w) ≠ rotx Real.pi := by
    intro he
    rw [he] at h3
    have := congrArg (fun v : Vec 3 ℝ => v 1) h3
    simp only [entries, rfloat_cos, rfloat_sin, Real.cos_pi, Real.sin_pi] at this
    have hz : w 1 / V3.norm2 w = 0 := by linarith
    rw [div_eq_zero_iff] at hz
    rcases hz with hz | hz
    · rw [hw] at hz
      simp only [entries] at hz
      linarith
    · exact hpos.ne' hz
  rw [← hw]
  constructor
  · rw [← h1, ne_eq, Mat.toM_inj]
    exact hne
  · rw [mexp_eq w hbig]
    intro he
    exact hne (Except.ok.inj he)

/-- A rotation by less than EPSILON comes back as the identity. -/
theorem C80_matrix_log_small_false [P : RealParams] :
    ∃ R, IsRot R ∧ R ≠ M33.one ∧ matrix_exponential (matrix_log R) = .ok M33.one := by
  have he := P.eps_pos
  have hp : P.eps / 2 < Real.pi := by
    have := P.eps_le
    have := Real.pi_gt_three
    norm_num at *
    linarith
  have hs : 0 < Real.sin (P.eps / 2) := Real.sin_pos_of_pos_of_lt_pi (by linarith) hp
  have hc : Real.cos (P.eps / 2) < 1 := by
    have := Real.sin_sq_add_cos_sq (P.eps / 2)
    by_contra h
    rw [not_lt] at h
    nlinarith
  have hc' : -1 < Real.cos (P.eps / 2) := by
    have := Real.sin_sq_add_cos_sq (P.eps / 2)
    by_contra h
    rw [not_lt] at h
    nlinarith
  refine ⟨rotz (P.eps / 2), isRot_rotz _, fun h => ?_, ?_⟩
  · have := congrArg (fun A : Mat 3 ℝ => A 1 0) h
    simp only [entries, rfloat_sin] at this
    exact hs.ne' this
  · have htr : rotz (T := ℝ) (P.eps / 2) 0 0 + rotz (T := ℝ) (P.eps / 2) 1 1
        + rotz (T := ℝ) (P.eps / 2) 2 2 = 2 * Real.cos (P.eps / 2) + 1 := by
      simp only [entries, rfloat_cos]; ring
    obtain ⟨u, t, ht, hpos, -, hu, hl, -⟩ := log_form (rotz (P.eps / 2)) (isRot_rotz _)
      (by rw [htr]; linarith) (fun h => by have := h.1; rw [htr] at this; linarith)
    rw [hl]
    refine mexp_small _ ?_
    rw [show skew_to_vec (skew_from_vec (V3.smul u t)) = V3.smul u t from Vec.ext3 rfl rfl rfl,
      norm_unit_smul u t hpos.le hu, ht, trace3, htr,
      show (2 * Real.cos (P.eps / 2) + 1 - 1) / 2 = Real.cos (P.eps / 2) by ring,
      Real.arccos_cos (by linarith) hp.le]
    linarith

end StaticMath

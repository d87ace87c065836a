import Verif.Props.Transform
import Verif.Props.Compare
import Verif.Props.QuatRotation
import Mathlib.Analysis.Real.Pi.Bounds

/-!
# C54, C87: Euler angles of a rotation matrix, and `get_parts`

Near gimbal lock (pitch within a relative EPSILON of a quarter turn) the code sets the roll angle
to zero. At gimbal lock this is exact, in the band around it the round trip only holds up to a
multiple of EPSILON.
-/

namespace StaticMath

open Quaternion

theorem near_half_pi [P : RealParams] (p c : ℝ) (hp : |p| ≤ Real.pi / 2)
    (hc : |c| = Real.pi / 2) (h : nearly_equal p c P.eps = true) : |p - c| < 4 * P.eps := by
  have hpos := P.eps_pos
  have hle := P.eps_le
  have hpi := Real.pi_gt_three
  have hpi4 := Real.pi_le_four
  norm_num at hle
  rcases (C35_nearly_equal p c P.eps).1 h with h | ⟨h, hlt⟩ | ⟨-, -, hlt⟩
  · rw [h, sub_self, abs_zero]; linarith
  · linarith
  · have : P.eps * min (|p| + |c|) P.maxVal ≤ P.eps * 4 :=
      mul_le_mul_of_nonneg_left ((min_le_left _ _).trans (by linarith)) hpos.le
    linarith

private theorem cos_le_of_near (p c : ℝ) (hc : c = Real.pi / 2 ∨ c = -(Real.pi / 2)) :
    Real.cos p ≤ |p - c| := by
  rcases hc with rfl | rfl
  · rw [← Real.sin_pi_div_two_sub, abs_sub_comm]
    exact (le_abs_self _).trans Real.abs_sin_le_abs
  · rw [← Real.sin_add_pi_div_two, sub_neg_eq_add]
    exact (le_abs_self _).trans Real.abs_sin_le_abs

/-- `rotation_to_euler` of a rotation, with the pitch described by its sine and cosine. -/
theorem to_euler_eq [P : RealParams] (R : Mat 3 ℝ) (hR : IsRot R) :
    ∃ p, Real.sin p = -R 2 0 ∧ Real.cos p = √(R 0 0 ^ 2 + R 1 0 ^ 2) ∧ |p| ≤ Real.pi / 2 ∧
      rotation_to_euler R =
        if nearly_equal p (-(Real.pi / 2)) P.eps = true then
          (Complex.arg ⟨-R 0 2, -R 1 2⟩, p, 0)
        else if nearly_equal p (Real.pi / 2) P.eps = true then
          (Complex.arg ⟨R 0 2, R 1 2⟩, p, 0)
        else (Complex.arg ⟨R 0 0, R 1 0⟩, p, Complex.arg ⟨R 2 2, R 2 1⟩) := by
  have h := (SO3Rels.of_mem hR).c00
  have hs : 0 ≤ R 0 0 ^ 2 + R 1 0 ^ 2 := by positivity
  have hu : √(R 0 0 ^ 2 + R 1 0 ^ 2) ^ 2 + (-R 2 0) ^ 2 = 1 := by
    rw [Real.sq_sqrt hs]; linarith
  obtain ⟨h1, h2⟩ := arg_sin_cos _ _ hu
  refine ⟨_, h1, h2, Complex.abs_arg_le_pi_div_two_iff.2 (Real.sqrt_nonneg _), ?_⟩
  unfold rotation_to_euler
  simp only [rfloat_atan2, rfloat_sqrt, rfloat_frac_pi_2, rfloat_epsilon, ← sq, neg_one_mul]

/-- A matrix whose entries are those of the product of the three rotations. -/
theorem euler_entries [RealParams] (y p r : ℝ) (R : Mat 3 ℝ)
    (h00 : Real.cos y * Real.cos p = R 0 0)
    (h01 : Real.cos y * Real.sin p * Real.sin r - Real.sin y * Real.cos r = R 0 1)
    (h02 : Real.cos y * Real.sin p * Real.cos r + Real.sin y * Real.sin r = R 0 2)
    (h10 : Real.sin y * Real.cos p = R 1 0)
    (h11 : Real.sin y * Real.sin p * Real.sin r + Real.cos y * Real.cos r = R 1 1)
    (h12 : Real.sin y * Real.sin p * Real.cos r - Real.cos y * Real.sin r = R 1 2)
    (h20 : -Real.sin p = R 2 0)
    (h21 : Real.cos p * Real.sin r = R 2 1)
    (h22 : Real.cos p * Real.cos r = R 2 2) : euler_to_rotation y p r none = R := by
  change M33.mul (M33.mul (rotz y) (roty p)) (rotx r) = R
  refine Mat.ext3 ?_ ?_ ?_ ?_ ?_ ?_ ?_ ?_ ?_ <;> simp only [entries, rfloat_sin, rfloat_cos]
  · linarith
  · linarith
  · linarith
  · linarith
  · linarith
  · linarith
  · linarith
  · linarith
  · linarith

theorem euler_roll0 [RealParams] (y p : ℝ) :
    euler_to_rotation y p 0 none = ⟨![
      ![Real.cos y * Real.cos p, -Real.sin y, Real.cos y * Real.sin p],
      ![Real.sin y * Real.cos p, Real.cos y, Real.sin y * Real.sin p],
      ![-Real.sin p, 0, Real.cos p]]⟩ := by
  refine euler_entries y p 0 _ rfl ?_ ?_ rfl ?_ ?_ rfl ?_ ?_ <;>
    simp only [Real.sin_zero, Real.cos_zero, mul_zero, mul_one, zero_sub, add_zero, zero_add,
      sub_zero] <;> rfl

/-- The generic branch reproduces the matrix. -/
theorem euler_generic_branch [RealParams] (R : Mat 3 ℝ) (hR : IsRot R) (p s : ℝ)
    (hp : Real.sin p = -R 2 0) (hc : Real.cos p = s) (hs : 0 < s)
    (hs2 : s ^ 2 = R 0 0 ^ 2 + R 1 0 ^ 2) :
    euler_to_rotation (Complex.arg ⟨R 0 0, R 1 0⟩) p (Complex.arg ⟨R 2 2, R 2 1⟩) none = R := by
  obtain ⟨r00, r11, r22, r01, r02, r12, c00, c11, c22, c01, c02, c12, k00, k01, k02, k10, k11, k12,
    k20, k21, k22, -⟩ := SO3Rels.of_mem hR
  have hy := arg_sin_cos' (R 0 0) (R 1 0) s hs hs2.symm
  have hr := arg_sin_cos' (R 2 2) (R 2 1) s hs (by rw [hs2]; linarith)
  have hne := hs.ne'
  refine euler_entries _ _ _ R ?_ ?_ ?_ ?_ ?_ ?_ ?_ ?_ ?_ <;>
    simp only [hy.1, hy.2, hr.1, hr.2, hp, hc, neg_neg]
  · field_simp
  · field_simp
    rw [hs2]
    linear_combination -R 0 0 * c01 - R 1 0 * k22
  · field_simp
    rw [hs2]
    linear_combination -R 0 0 * c02 + R 1 0 * k21
  · field_simp
  · field_simp
    rw [hs2]
    linear_combination -R 1 0 * c01 + R 0 0 * k22
  · field_simp
    rw [hs2]
    linear_combination -R 1 0 * c02 - R 0 0 * k21
  · field_simp
  · field_simp

private theorem unit_bounds (ρ t s : ℝ) (h0 : 0 ≤ ρ) (h : ρ ^ 2 = 1 - t ^ 2) (ht : t ^ 2 ≤ s ^ 2) :
    ρ ≤ 1 ∧ 1 - s ^ 2 ≤ ρ := by
  have h1 : ρ ≤ 1 := by nlinarith [sq_nonneg t]
  exact ⟨h1, by nlinarith⟩

private theorem band_bounds (ρ κ s : ℝ) (hs : 0 ≤ s) (hs1 : s ≤ 1 / 4) (h1 : ρ ≤ 1)
    (h2 : 1 - s ^ 2 ≤ ρ) (h3 : κ ≤ 1) (h4 : 1 - s ^ 2 ≤ κ) :
    |1 - ρ * κ| ≤ 2 * s ^ 2 ∧ |ρ - κ| ≤ s ^ 2 ∧ s ^ 2 ≤ s / 4 ∧ 0 < ρ := by
  have h5 : s ^ 2 ≤ s / 4 := by nlinarith
  refine ⟨?_, ?_, h5, by linarith⟩
  · rw [abs_le]; constructor <;> nlinarith
  · rw [abs_le]; constructor <;> linarith

/-- Bound for the branches that set the roll to zero; `σ` is the sign of `R 2 0`. -/
private theorem band [RealParams] (R : Mat 3 ℝ) (hR : IsRot R) (p y σ s : ℝ)
    (hσ : σ = 1 ∨ σ = -1) (hσ0 : 0 ≤ σ * R 2 0)
    (hp : Real.sin p = -R 2 0) (hc : Real.cos p = s) (hs : 0 ≤ s) (hs1 : s ≤ 1 / 4)
    (hs2 : s ^ 2 = R 0 0 ^ 2 + R 1 0 ^ 2)
    (hy : y = Complex.arg ⟨-σ * R 0 2, -σ * R 1 2⟩) (i j : Fin 3) :
    |euler_to_rotation y p 0 none i j - R i j| ≤ 3 * s := by
  obtain ⟨r00, r11, r22, r01, r02, r12, c00, c11, c22, c01, c02, c12, k00, k01, k02, k10, k11, k12,
    k20, k21, k22, -⟩ := SO3Rels.of_mem hR
  have hσ2 : σ ^ 2 = 1 := by rcases hσ with h | h <;> rw [h] <;> norm_num
  have le_of_sq (x b : ℝ) (hb : 0 ≤ b) (h : x ^ 2 ≤ b ^ 2) : |x| ≤ b := abs_le_of_sq_le_sq h hb
  have e00 : |R 0 0| ≤ s := le_of_sq _ _ hs (by linarith [sq_nonneg (R 1 0)])
  have e10 : |R 1 0| ≤ s := le_of_sq _ _ hs (by linarith [sq_nonneg (R 0 0)])
  have e21 : |R 2 1| ≤ s := le_of_sq _ _ hs (by linarith [sq_nonneg (R 2 2)])
  have e22 : |R 2 2| ≤ s := le_of_sq _ _ hs (by linarith [sq_nonneg (R 2 1)])
  have q22 : R 2 2 ^ 2 ≤ s ^ 2 := sq_le_sq' (by linarith [(abs_le.1 e22).1]) (abs_le.1 e22).2
  obtain ⟨ρ, hρ⟩ : ∃ ρ, ρ = √(R 0 2 ^ 2 + R 1 2 ^ 2) := ⟨_, rfl⟩
  have hρ2 : ρ ^ 2 = R 0 2 ^ 2 + R 1 2 ^ 2 := by rw [hρ, Real.sq_sqrt (by positivity)]
  have hρ0 : 0 ≤ ρ := by rw [hρ]; exact Real.sqrt_nonneg _
  have hρ2' : ρ ^ 2 = 1 - R 2 2 ^ 2 := by linarith
  obtain ⟨hρ1, hρs⟩ := unit_bounds ρ (R 2 2) s hρ0 hρ2' q22
  obtain ⟨κ, hκ⟩ : ∃ κ, κ = σ * R 2 0 := ⟨_, rfl⟩
  have hκ2 : κ ^ 2 = 1 - s ^ 2 := by rw [hκ, mul_pow, hσ2]; linarith
  have hκ0 : 0 ≤ κ := by rw [hκ]; exact hσ0
  obtain ⟨hκ1, hκs⟩ := unit_bounds κ s s hκ0 hκ2 le_rfl
  obtain ⟨hρκ, hρκ', hss, hρpos⟩ := band_bounds ρ κ s hs hs1 hρ1 hρs hκ1 hκs
  obtain ⟨hS, hC⟩ := arg_sin_cos' (-σ * R 0 2) (-σ * R 1 2) ρ hρpos (by
    rw [hρ2]; linear_combination (R 0 2 ^ 2 + R 1 2 ^ 2) * hσ2)
  rw [← hy] at hS hC
  have hS' : Real.sin y * ρ = -σ * R 1 2 := by rw [hS, div_mul_cancel₀ _ hρpos.ne']
  have hC' : Real.cos y * ρ = -σ * R 0 2 := by rw [hC, div_mul_cancel₀ _ hρpos.ne']
  have hS1 := Real.abs_sin_le_one y
  have hC1 := Real.abs_cos_le_one y
  have e12 : R 1 2 = -σ * Real.sin y * ρ := by linear_combination σ * hS' - R 1 2 * hσ2
  have e02 : R 0 2 = -σ * Real.cos y * ρ := by linear_combination σ * hC' - R 0 2 * hσ2
  have e20 : R 2 0 = σ * κ := by rw [hκ]; linear_combination -R 2 0 * hσ2
  have aσ : |σ| = 1 := by rcases hσ with h | h <;> rw [h] <;> norm_num
  -- products of bounded numbers
  have pr (a b A B : ℝ) (ha : |a| ≤ A) (hb : |b| ≤ B) : |a * b| ≤ A * B := by
    rw [abs_mul]
    exact mul_le_mul ha hb (abs_nonneg _) ((abs_nonneg _).trans ha)
  have as : |s| ≤ s := (abs_of_nonneg hs).le
  have tri (a b A B C : ℝ) (ha : |a| ≤ A) (hb : |b| ≤ B) (h : A + B ≤ C) : |a - b| ≤ C :=
    (abs_sub a b).trans (by linarith)
  rw [euler_roll0]
  fin_cases i <;> fin_cases j
  · change |Real.cos y * Real.cos p - R 0 0| ≤ 3 * s
    rw [hc]
    exact tri _ _ _ _ _ (pr _ _ _ _ hC1 as) e00 (by linarith)
  · change |-Real.sin y - R 0 1| ≤ 3 * s
    have : -Real.sin y - R 0 1 = R 1 0 * R 2 2 - Real.sin y * (1 - ρ * κ) := by
      rw [k01, e12, e20]
      linear_combination Real.sin y * ρ * κ * hσ2
    rw [this]
    exact tri _ _ _ _ _ (pr _ _ _ _ e10 e22) (pr _ _ _ _ hS1 hρκ) (by linarith)
  · change |Real.cos y * Real.sin p - R 0 2| ≤ 3 * s
    have : Real.cos y * Real.sin p - R 0 2 = σ * (Real.cos y * (ρ - κ)) - 0 := by
      rw [hp, e02, e20]; ring
    rw [this]
    exact tri _ _ _ _ _ (pr _ _ _ _ aσ.le (pr _ _ _ _ hC1 hρκ')) (abs_zero.le) (by linarith)
  · change |Real.sin y * Real.cos p - R 1 0| ≤ 3 * s
    rw [hc]
    exact tri _ _ _ _ _ (pr _ _ _ _ hS1 as) e10 (by linarith)
  · change |Real.cos y - R 1 1| ≤ 3 * s
    have : Real.cos y - R 1 1 = Real.cos y * (1 - ρ * κ) - R 0 0 * R 2 2 := by
      rw [k11, e02, e20]
      linear_combination -Real.cos y * ρ * κ * hσ2
    rw [this]
    exact tri _ _ _ _ _ (pr _ _ _ _ hC1 hρκ) (pr _ _ _ _ e00 e22) (by linarith)
  · change |Real.sin y * Real.sin p - R 1 2| ≤ 3 * s
    have : Real.sin y * Real.sin p - R 1 2 = σ * (Real.sin y * (ρ - κ)) - 0 := by
      rw [hp, e12, e20]; ring
    rw [this]
    exact tri _ _ _ _ _ (pr _ _ _ _ aσ.le (pr _ _ _ _ hS1 hρκ')) (abs_zero.le) (by linarith)
  · change |-Real.sin p - R 2 0| ≤ 3 * s
    rw [hp, neg_neg, sub_self, abs_zero]
    linarith
  · change |0 - R 2 1| ≤ 3 * s
    exact tri _ _ _ _ _ (abs_zero.le) e21 (by linarith)
  · change |Real.cos p - R 2 2| ≤ 3 * s
    rw [hc]
    exact tri _ _ _ _ _ as e22 (by linarith)

private theorem round_trip [P : RealParams] (R : Mat 3 ℝ) (hR : IsRot R) :
    euler_to_rotation (rotation_to_euler R).1 (rotation_to_euler R).2.1 (rotation_to_euler R).2.2
      none = R ∨
    (√(R 0 0 ^ 2 + R 1 0 ^ 2) < 4 * P.eps ∧ ∀ i j,
      |euler_to_rotation (rotation_to_euler R).1 (rotation_to_euler R).2.1
        (rotation_to_euler R).2.2 none i j - R i j| ≤ 3 * √(R 0 0 ^ 2 + R 1 0 ^ 2)) := by
  obtain ⟨p, hsin, hcos, hp, he⟩ := to_euler_eq R hR
  have hs2 : √(R 0 0 ^ 2 + R 1 0 ^ 2) ^ 2 = R 0 0 ^ 2 + R 1 0 ^ 2 :=
    Real.sq_sqrt (by positivity)
  have hpos := P.eps_pos
  have hle := P.eps_le
  norm_num at hle
  have hpi := Real.pi_gt_three
  have habs : |-(Real.pi / 2)| = Real.pi / 2 := by rw [abs_neg, abs_of_pos (by linarith)]
  have habs' : |Real.pi / 2| = Real.pi / 2 := abs_of_pos (by linarith)
  by_cases h1 : nearly_equal p (-(Real.pi / 2)) P.eps = true
  · have hn := near_half_pi p _ hp habs h1
    have hs4 : √(R 0 0 ^ 2 + R 1 0 ^ 2) < 4 * P.eps := by
      rw [← hcos]; exact lt_of_le_of_lt (cos_le_of_near p _ (Or.inr rfl)) hn
    right
    rw [he, if_pos h1]
    refine ⟨hs4, fun i j => ?_⟩
    refine band R hR p _ 1 _ (Or.inl rfl) ?_ hsin hcos (Real.sqrt_nonneg _) (by linarith) hs2
      (by rw [neg_one_mul, neg_one_mul]) i j
    have : Real.sin p ≤ 0 := Real.sin_nonpos_of_nonpos_of_neg_pi_le
      (by linarith [(abs_lt.1 hn).2]) (by linarith [(abs_le.1 hp).1])
    linarith
  · by_cases h2 : nearly_equal p (Real.pi / 2) P.eps = true
    · have hn := near_half_pi p _ hp habs' h2
      have hs4 : √(R 0 0 ^ 2 + R 1 0 ^ 2) < 4 * P.eps := by
        rw [← hcos]; exact lt_of_le_of_lt (cos_le_of_near p _ (Or.inl rfl)) hn
      right
      rw [he, if_neg h1, if_pos h2]
      refine ⟨hs4, fun i j => ?_⟩
      refine band R hR p _ (-1) _ (Or.inr rfl) ?_ hsin hcos (Real.sqrt_nonneg _) (by linarith) hs2
        (by rw [neg_neg, one_mul, one_mul]) i j
      have : 0 ≤ Real.sin p := Real.sin_nonneg_of_nonneg_of_le_pi
        (by linarith [(abs_lt.1 hn).1]) (by linarith [(abs_le.1 hp).2])
      linarith
    · left
      rw [he, if_neg h1, if_neg h2]
      refine euler_generic_branch R hR p _ hsin hcos ?_ hs2
      rcases (Real.sqrt_nonneg (R 0 0 ^ 2 + R 1 0 ^ 2)).eq_or_lt with h0 | h0
      · exfalso
        rw [← h0] at hcos
        have hm : Real.sin p = 1 ∨ Real.sin p = -1 := by
          have := Real.sin_sq_add_cos_sq p
          rw [hcos] at this
          exact mul_self_eq_one_iff.1 (by linarith)
        have hp1 := (abs_le.1 hp).1
        have hp2 := (abs_le.1 hp).2
        rcases hm with hm | hm
        · have : p = Real.pi / 2 := by
            refine Real.injOn_sin ⟨hp1, hp2⟩ ⟨by linarith, le_rfl⟩ ?_
            rw [hm, Real.sin_pi_div_two]
          exact h2 ((C35_nearly_equal _ _ _).2 (Or.inl this))
        · have : p = -(Real.pi / 2) := by
            refine Real.injOn_sin ⟨hp1, hp2⟩ ⟨le_rfl, by linarith⟩ ?_
            rw [hm, Real.sin_neg, Real.sin_pi_div_two]
          exact h1 ((C35_nearly_equal _ _ _).2 (Or.inl this))
      · exact h0

/-! ## C54 -/

/-- Missing with respect to C54: for rotations within `4 * EPSILON` of gimbal lock but not at
gimbal lock the round trip is only accurate up to `12 * EPSILON` in each entry (last claim, which
holds for all rotations); it is exact otherwise, in particular at gimbal lock. -/
theorem C54_rotation_to_euler_partial [P : RealParams] (R : Mat 3 ℝ) (hR : IsRot R) :
    ((R 0 0 = 0 ∧ R 1 0 = 0) ∨ 4 * P.eps ≤ √(R 0 0 ^ 2 + R 1 0 ^ 2) →
      euler_to_rotation (rotation_to_euler R).1 (rotation_to_euler R).2.1
        (rotation_to_euler R).2.2 none = R) ∧
    ∀ i j, |euler_to_rotation (rotation_to_euler R).1 (rotation_to_euler R).2.1
        (rotation_to_euler R).2.2 none i j - R i j| ≤ 12 * P.eps := by
  have hpos := P.eps_pos
  rcases round_trip R hR with h | ⟨hs, hb⟩
  · refine ⟨fun _ => h, fun i j => ?_⟩
    rw [h, sub_self, abs_zero]
    linarith
  · refine ⟨fun h => ?_, fun i j => (hb i j).trans (by linarith)⟩
    rcases h with ⟨h0, h1⟩ | h
    · rw [h0, h1] at hb
      norm_num at hb
      exact Mat.ext (funext fun i => funext fun j => sub_eq_zero.1 (hb i j))
    · exact absurd hs (not_lt.2 h)

/-- Rotations in both cases: gimbal lock, and away from it. -/
example [P : RealParams] : (IsRot (roty (Real.pi / 2)) ∧ roty (Real.pi / 2) 0 0 = 0 ∧
      roty (Real.pi / 2) 1 0 = 0) ∧
    IsRot (rotz 1) ∧ 4 * P.eps ≤ √(rotz (1 : ℝ) 0 0 ^ 2 + rotz (1 : ℝ) 1 0 ^ 2) := by
  refine ⟨⟨isRot_roty _, ?_, rfl⟩, isRot_rotz _, ?_⟩
  · exact Real.cos_pi_div_two
  · simp only [entries, rfloat_sin, rfloat_cos]
    rw [Real.cos_sq_add_sin_sq, Real.sqrt_one]
    have := P.eps_le
    norm_num at this
    linarith

/-- The round trip is not exact: with pitch `π/2 - EPSILON` and roll `π/2` the entry `(2,1)` is
lost. -/
theorem C54_rotation_to_euler_false [P : RealParams] :
    ∃ R : Mat 3 ℝ, IsRot R ∧ euler_to_rotation (rotation_to_euler R).1 (rotation_to_euler R).2.1
        (rotation_to_euler R).2.2 none ≠ R := by
  have hpos := P.eps_pos
  have hle := P.eps_le
  norm_num at hle
  have hpi := Real.pi_gt_three
  have hsin : 0 < Real.sin P.eps := Real.sin_pos_of_pos_of_lt_pi hpos (by linarith)
  let R : Mat 3 ℝ := M33.mul (roty (Real.pi / 2 - P.eps)) (rotx (Real.pi / 2))
  have hR : IsRot R := isRot_mul (isRot_roty _) (isRot_rotx _)
  have e00 : R 0 0 = Real.sin P.eps := by
    change M33.mul (roty (Real.pi / 2 - P.eps)) (rotx (Real.pi / 2)) 0 0 = _
    simp only [entries, rfloat_cos, Real.cos_pi_div_two_sub]; ring
  have e10 : R 1 0 = 0 := by
    change M33.mul (roty (Real.pi / 2 - P.eps)) (rotx (Real.pi / 2)) 1 0 = _
    simp only [entries]; ring
  have e20 : R 2 0 = -Real.cos P.eps := by
    change M33.mul (roty (Real.pi / 2 - P.eps)) (rotx (Real.pi / 2)) 2 0 = _
    simp only [entries, rfloat_sin, Real.sin_pi_div_two_sub]; ring
  have e21 : R 2 1 = Real.sin P.eps := by
    change M33.mul (roty (Real.pi / 2 - P.eps)) (rotx (Real.pi / 2)) 2 1 = _
    simp only [entries, rfloat_cos, rfloat_sin, Real.cos_pi_div_two_sub, Real.sin_pi_div_two]; ring
  refine ⟨R, hR, fun h => ?_⟩
  obtain ⟨p, hs, hc, hp, he⟩ := to_euler_eq R hR
  have hp' : p = Real.pi / 2 - P.eps := by
    refine Real.injOn_sin ⟨(abs_le.1 hp).1, (abs_le.1 hp).2⟩ ⟨by linarith, by linarith⟩ ?_
    rw [hs, e20, neg_neg, Real.sin_pi_div_two_sub]
  have h1 : ¬nearly_equal p (-(Real.pi / 2)) P.eps = true := fun hn => by
    have := near_half_pi p _ hp (by rw [abs_neg, abs_of_pos (by linarith)]) hn
    rw [hp'] at this
    have := (abs_lt.1 this).2
    linarith
  have h2 : nearly_equal p (Real.pi / 2) P.eps = true := by
    refine (C35_nearly_equal _ _ _).2 (Or.inr (Or.inr ⟨by rw [hp']; linarith, by linarith, ?_⟩))
    have hmax := P.maxVal_ge
    norm_num at hmax
    have hpi4 := Real.pi_le_four
    rw [hp', abs_of_pos (show (0 : ℝ) < Real.pi / 2 - P.eps by linarith),
      abs_of_pos (show (0 : ℝ) < Real.pi / 2 by linarith), min_eq_left (by linarith),
      show Real.pi / 2 - P.eps - Real.pi / 2 = -P.eps by ring, abs_neg, abs_of_pos hpos]
    nlinarith
  rw [he, if_neg h1, if_pos h2, euler_roll0] at h
  have := congrArg (fun A : Mat 3 ℝ => A 2 1) h
  change (0 : ℝ) = R 2 1 at this
  rw [e21] at this
  linarith

/-- The quaternion version: `to_euler_angles` followed by `from_euler_angles` gives the quaternion
back up to sign (same restriction as `C54_rotation_to_euler_partial`). -/
theorem C54_to_euler_angles_partial [P : RealParams] (q : Quat ℝ) (hq : normSq q.toH = 1)
    (h : (q.to_rotation 0 0 = 0 ∧ q.to_rotation 1 0 = 0) ∨
      4 * P.eps ≤ √(q.to_rotation 0 0 ^ 2 + q.to_rotation 1 0 ^ 2)) :
    (Quat.from_euler_angles q.to_euler_angles.1 q.to_euler_angles.2.1 q.to_euler_angles.2.2).toH
      = q.toH ∨
    (Quat.from_euler_angles q.to_euler_angles.1 q.to_euler_angles.2.1 q.to_euler_angles.2.2).toH
      = -q.toH := by
  obtain ⟨h1, h2, -⟩ := C53_from_euler_angles q.to_euler_angles.1 q.to_euler_angles.2.1
    q.to_euler_angles.2.2
  refine (C48_double_cover _ q h1 hq).1 (h2.trans ?_)
  have hR : IsRot q.to_rotation := (mem_SO3_iff _).2
    ⟨(C48_to_rotation q q hq).1, (C48_to_rotation q q hq).2.1⟩
  exact (C54_rotation_to_euler_partial q.to_rotation hR).1 h

/-- The unit quaternion `one` meets the hypotheses. -/
example [P : RealParams] : normSq (Quat.one : Quat ℝ).toH = 1 ∧
    4 * P.eps ≤ √((Quat.one : Quat ℝ).to_rotation 0 0 ^ 2 + (Quat.one : Quat ℝ).to_rotation 1 0 ^ 2) := by
  have := P.eps_le
  norm_num at this
  constructor
  · rw [Quat.unit_iff]
    change (1 : ℝ) ^ 2 + 0 ^ 2 + 0 ^ 2 + 0 ^ 2 = 1
    norm_num
  · rw [Quat.rot00, Quat.rot10]
    change 4 * P.eps ≤ √((1 ^ 2 + 0 ^ 2 - 0 ^ 2 - 0 ^ 2 : ℝ) ^ 2 + (2 * (0 * 0 + 1 * 0)) ^ 2)
    norm_num
    linarith

/-! ## C118: the angles come back -/

private theorem arg_polar (r t : ℝ) (hr : 0 < r) (h1 : -Real.pi < t) (h2 : t ≤ Real.pi) :
    Complex.arg ⟨r * Real.cos t, r * Real.sin t⟩ = t := by
  have : (⟨r * Real.cos t, r * Real.sin t⟩ : ℂ) = (r : ℂ) * (Complex.cos t + Complex.sin t * Complex.I) := by
    apply Complex.ext <;>
      simp [← Complex.ofReal_cos, ← Complex.ofReal_sin]
  rw [this, Complex.arg_mul_cos_add_sin_mul_I hr ⟨h1, h2⟩]

/-- Away from gimbal lock `rotation_to_euler` returns the very angles the rotation was built from,
provided they are in the principal ranges. -/
theorem C118_euler_angles [P : RealParams] (y p r : ℝ) (hy : -Real.pi < y) (hy' : y ≤ Real.pi)
    (hp : |p| + 4 * P.eps ≤ Real.pi / 2) (hr : -Real.pi < r) (hr' : r ≤ Real.pi) :
    rotation_to_euler (euler_to_rotation y p r none) = (y, p, r) ∧
    (Quat.from_euler_angles y p r).to_euler_angles = (y, p, r) := by
  have hpos := P.eps_pos
  have hp1 := (abs_le.1 (show |p| ≤ Real.pi / 2 - 4 * P.eps by linarith))
  have hpi := Real.pi_pos
  have key : rotation_to_euler (euler_to_rotation y p r none) = (y, p, r) := by
    have hR : IsRot (euler_to_rotation y p r none) :=
      isRot_mul (isRot_mul (isRot_rotz _) (isRot_roty _)) (isRot_rotx _)
    obtain ⟨R, hRe⟩ : ∃ R, R = euler_to_rotation y p r none := ⟨_, rfl⟩
    have e (i j : Fin 3) : R i j = M33.mul (M33.mul (rotz y) (roty p)) (rotx r) i j := by
      rw [hRe]; rfl
    have e00 : R 0 0 = Real.cos p * Real.cos y := by
      rw [e]; simp only [entries, rfloat_sin, rfloat_cos]; ring
    have e10 : R 1 0 = Real.cos p * Real.sin y := by
      rw [e]; simp only [entries, rfloat_sin, rfloat_cos]; ring
    have e20 : R 2 0 = -Real.sin p := by
      rw [e]; simp only [entries, rfloat_sin, rfloat_cos]; ring
    have e21 : R 2 1 = Real.cos p * Real.sin r := by
      rw [e]; simp only [entries, rfloat_sin, rfloat_cos]; ring
    have e22 : R 2 2 = Real.cos p * Real.cos r := by
      rw [e]; simp only [entries, rfloat_sin, rfloat_cos]; ring
    rw [← hRe] at hR ⊢
    obtain ⟨p', hs, hc, hp', he⟩ := to_euler_eq R hR
    have hpp : p' = p := by
      refine Real.injOn_sin ⟨(abs_le.1 hp').1, (abs_le.1 hp').2⟩ ⟨by linarith, by linarith⟩ ?_
      rw [hs, e20, neg_neg]
    subst hpp
    have hcos : 0 < Real.cos p' := Real.cos_pos_of_mem_Ioo ⟨by linarith, by linarith⟩
    have h1 : ¬nearly_equal p' (-(Real.pi / 2)) P.eps = true := fun hn => by
      have := near_half_pi p' _ hp' (by rw [abs_neg, abs_of_pos (by linarith)]) hn
      have := (abs_lt.1 this).2
      linarith
    have h2 : ¬nearly_equal p' (Real.pi / 2) P.eps = true := fun hn => by
      have := near_half_pi p' _ hp' (abs_of_pos (by linarith)) hn
      have := (abs_lt.1 this).1
      linarith
    rw [he, if_neg h1, if_neg h2, e00, e10, e21, e22, arg_polar _ _ hcos hy hy',
      arg_polar _ _ hcos hr hr']
  refine ⟨key, ?_⟩
  rw [← key]
  exact congrArg rotation_to_euler (C53_from_euler_angles y p r).2.1

/-- Angles meeting the hypotheses. -/
example [P : RealParams] : -Real.pi < (3 : ℝ) ∧ (3 : ℝ) ≤ Real.pi ∧
    |(-1 : ℝ)| + 4 * P.eps ≤ Real.pi / 2 := by
  have := P.eps_le
  have h := Real.pi_gt_three
  norm_num at this
  rw [abs_neg, abs_one]
  refine ⟨by linarith, by linarith, by linarith⟩

/-- Whatever the rotation, the angles returned are in the principal ranges. -/
theorem C118_euler_ranges [RealParams] (R : Mat 3 ℝ) (hR : IsRot R) :
    |(rotation_to_euler R).2.1| ≤ Real.pi / 2 ∧
    (-Real.pi < (rotation_to_euler R).1 ∧ (rotation_to_euler R).1 ≤ Real.pi) ∧
    (-Real.pi < (rotation_to_euler R).2.2 ∧ (rotation_to_euler R).2.2 ≤ Real.pi) := by
  have hpi := Real.pi_pos
  obtain ⟨p, -, -, hp, he⟩ := to_euler_eq R hR
  have ha (z : ℂ) : -Real.pi < z.arg ∧ z.arg ≤ Real.pi := ⟨Complex.neg_pi_lt_arg z, Complex.arg_le_pi z⟩
  have h0 : -Real.pi < (0 : ℝ) ∧ (0 : ℝ) ≤ Real.pi := ⟨by linarith, hpi.le⟩
  rw [he]
  split
  · exact ⟨hp, ha _, h0⟩
  · split
    · exact ⟨hp, ha _, h0⟩
    · exact ⟨hp, ha _, ha _⟩

/-- A quarter turn about y is at gimbal lock. -/
example [RealParams] : IsRot (roty (Real.pi / 2)) := isRot_roty _

/-! ## C87 -/

private theorem get_parts_rot [P : RealParams] (H : Mat 4 ℝ) :
    normSq (get_parts H).1.toH = 1 ∧ (get_parts H).1.to_rotation = euler_to_rotation
      (rotation_to_euler H.block3).1 (rotation_to_euler H.block3).2.1
      (rotation_to_euler H.block3).2.2 none := by
  have hr : (⟨![![H 0 0, H 0 1, H 0 2], ![H 1 0, H 1 1, H 1 2], ![H 2 0, H 2 1, H 2 2]]⟩ : Mat 3 ℝ)
      = H.block3 := by
    refine Mat.ext3 ?_ ?_ ?_ ?_ ?_ ?_ ?_ ?_ ?_ <;> rfl
  have hq : (get_parts H).1 = Quat.from_euler_angles (rotation_to_euler H.block3).1
      (rotation_to_euler H.block3).2.1 (rotation_to_euler H.block3).2.2 := by
    rw [← hr]; rfl
  obtain ⟨h1, h2, -⟩ := C53_from_euler_angles (rotation_to_euler H.block3).1
      (rotation_to_euler H.block3).2.1 (rotation_to_euler H.block3).2.2
  rw [hq]
  exact ⟨h1, h2⟩

/-- Missing with respect to C87: near (but not at) gimbal lock the rotation matrix of the
quaternion agrees with the rotation part only up to `12 * EPSILON` in each entry. -/
theorem C87_get_parts_partial [P : RealParams] (H : Mat 4 ℝ) (h : IsRigid H) :
    normSq (get_parts H).1.toH = 1 ∧
    (∀ i : Fin 3, (get_parts H).2 i = H i.castSucc 3) ∧
    ((H 0 0 = 0 ∧ H 1 0 = 0) ∨ 4 * P.eps ≤ √(H 0 0 ^ 2 + H 1 0 ^ 2) →
      (get_parts H).1.to_rotation = H.block3) ∧
    ∀ i j, |(get_parts H).1.to_rotation i j - H.block3 i j| ≤ 12 * P.eps := by
  obtain ⟨h1, h2⟩ := get_parts_rot H
  obtain ⟨h3, h4⟩ := C54_rotation_to_euler_partial H.block3 h.rot
  rw [h2]
  exact ⟨h1, fun i => by fin_cases i <;> rfl, h3, h4⟩

/-- A rigid transformation away from gimbal lock. -/
example [P : RealParams] : IsRigid (homogeneous_from_rotation (rotz 1) ⟨![1, 2, 3]⟩) ∧
    4 * P.eps ≤ √(homogeneous_from_rotation (rotz 1) (⟨![1, 2, 3]⟩ : Vec 3 ℝ) 0 0 ^ 2
      + homogeneous_from_rotation (rotz 1) (⟨![1, 2, 3]⟩ : Vec 3 ℝ) 1 0 ^ 2) := by
  refine ⟨isRigid_from (isRot_rotz _) _, ?_⟩
  change 4 * P.eps ≤ √(Real.cos 1 ^ 2 + Real.sin 1 ^ 2)
  rw [Real.cos_sq_add_sin_sq, Real.sqrt_one]
  have := P.eps_le
  norm_num at this
  linarith

theorem C87_get_parts_false [P : RealParams] :
    ∃ H : Mat 4 ℝ, IsRigid H ∧ (get_parts H).1.to_rotation ≠ H.block3 := by
  obtain ⟨R, hR, h⟩ := C54_rotation_to_euler_false
  refine ⟨homogeneous_from_rotation R V3.zero, isRigid_from hR _, ?_⟩
  have e : (homogeneous_from_rotation R V3.zero).block3 = R :=
    Mat.ext3 rfl rfl rfl rfl rfl rfl rfl rfl rfl
  rw [(get_parts_rot _).2, e]
  exact h

end StaticMath

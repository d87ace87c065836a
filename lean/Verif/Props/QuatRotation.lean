import Verif.Props.QuatAlgebra
import Verif.Lemmas.Real3

/-!
# C49-C53: quaternions from rotation matrices, from axis and angle, from Euler angles

Rotation matrices are the elements of Mathlib's `Matrix.specialOrthogonalGroup (Fin 3) ℝ`.
-/

namespace StaticMath

open Quaternion

/-! ## C49, C50 `from_rotation` -/

private theorem scaled (w : Quat ℝ) (t s : ℝ) (hs : s ^ 2 = t) (ht : 0 < t) (R : Mat 3 ℝ)
    (hn : w.q0 ^ 2 + w.q 0 ^ 2 + w.q 1 ^ 2 + w.q 2 ^ 2 = 4 * t)
    (h : ∀ i j, w.to_rotation i j = 4 * t * R i j) :
    normSq ((w.smul (1 / (1 + 1))).sdiv s).toH = 1 ∧
    ((w.smul (1 / (1 + 1))).sdiv s).to_rotation = R := by
  have hs0 : s ≠ 0 := fun h0 => by rw [h0] at hs; norm_num at hs; linarith
  obtain ⟨k, hk⟩ : ∃ k, k = 1 / (1 + 1) / s := ⟨_, rfl⟩
  have hk4 : k ^ 2 * (4 * t) = 1 := by rw [hk, ← hs]; field_simp; norm_num
  have e0 : ((w.smul (1 / (1 + 1))).sdiv s).q0 = w.q0 * k := by
    rw [hk]; change w.q0 * (1 / (1 + 1)) / s = _; ring
  have e (i : Fin 3) : ((w.smul (1 / (1 + 1))).sdiv s).q i = w.q i * k := by
    change (V3.sdiv (V3.smul w.q (1 / (1 + 1))) s) i = _
    rw [hk, V3.sdiv_apply, V3.smul_apply]; ring
  constructor
  · rw [Quat.unit_iff, e0, e, e, e]
    linear_combination k ^ 2 * hn + hk4
  · have h00 := h 0 0; have h01 := h 0 1; have h02 := h 0 2
    have h10 := h 1 0; have h11 := h 1 1; have h12 := h 1 2
    have h20 := h 2 0; have h21 := h 2 1; have h22 := h 2 2
    simp only [Quat.rot00, Quat.rot01, Quat.rot02, Quat.rot10, Quat.rot11,
      Quat.rot12, Quat.rot20, Quat.rot21, Quat.rot22] at h00 h01 h02 h10 h11 h12 h20 h21 h22
    refine Mat.ext3 ?_ ?_ ?_ ?_ ?_ ?_ ?_ ?_ ?_ <;>
    simp only [Quat.rot00, Quat.rot01, Quat.rot02, Quat.rot10, Quat.rot11,
      Quat.rot12, Quat.rot20, Quat.rot21, Quat.rot22, e0, e]
    · linear_combination k ^ 2 * h00 + R 0 0 * hk4
    · linear_combination k ^ 2 * h01 + R 0 1 * hk4
    · linear_combination k ^ 2 * h02 + R 0 2 * hk4
    · linear_combination k ^ 2 * h10 + R 1 0 * hk4
    · linear_combination k ^ 2 * h11 + R 1 1 * hk4
    · linear_combination k ^ 2 * h12 + R 1 2 * hk4
    · linear_combination k ^ 2 * h20 + R 2 0 * hk4
    · linear_combination k ^ 2 * h21 + R 2 1 * hk4
    · linear_combination k ^ 2 * h22 + R 2 2 * hk4

theorem C49_from_rotation [RealParams] (R : Mat 3 ℝ)
    (hR : R.toM ∈ Matrix.specialOrthogonalGroup (Fin 3) ℝ) :
    normSq (Quat.from_rotation R).toH = 1 ∧ (Quat.from_rotation R).to_rotation = R := by
  obtain ⟨r00, r11, r22, r01, r02, r12, c00, c11, c22, c01, c02, c12, k00, k01, k02, k10, k11, k12,
    k20, k21, k22, -⟩ := SO3Rels.of_mem hR
  unfold Quat.from_rotation
  simp only [M33.transpose_apply, rord_lt, decide_eq_true_eq, rfloat_sqrt]
  split_ifs with h1 h2 h3
  · have ht : 0 < 1 + R 0 0 - R 1 1 - R 2 2 := by linarith
    refine scaled _ _ _ (Real.sq_sqrt ht.le) ht R ?_ ?_
    · change (R 2 1 - R 1 2) ^ 2 + (1 + R 0 0 - R 1 1 - R 2 2) ^ 2 + (R 1 0 + R 0 1) ^ 2
        + (R 0 2 + R 2 0) ^ 2 = _
      linarith
    · intro i j
      fin_cases i <;> fin_cases j
      · refine (Quat.rot00 _).trans ?_
        change (R 2 1 - R 1 2) ^ 2 + (1 + R 0 0 - R 1 1 - R 2 2) ^ 2 - (R 1 0 + R 0 1) ^ 2
          - (R 0 2 + R 2 0) ^ 2
          = 4 * (1 + R 0 0 - R 1 1 - R 2 2) * R 0 0
        linarith
      · refine (Quat.rot01 _).trans ?_
        change 2 * ((1 + R 0 0 - R 1 1 - R 2 2) * (R 1 0 + R 0 1)
          - (R 2 1 - R 1 2) * (R 0 2 + R 2 0))
          = 4 * (1 + R 0 0 - R 1 1 - R 2 2) * R 0 1
        linarith
      · refine (Quat.rot02 _).trans ?_
        change 2 * ((1 + R 0 0 - R 1 1 - R 2 2) * (R 0 2 + R 2 0)
          + (R 2 1 - R 1 2) * (R 1 0 + R 0 1))
          = 4 * (1 + R 0 0 - R 1 1 - R 2 2) * R 0 2
        linarith
      · refine (Quat.rot10 _).trans ?_
        change 2 * ((1 + R 0 0 - R 1 1 - R 2 2) * (R 1 0 + R 0 1)
          + (R 2 1 - R 1 2) * (R 0 2 + R 2 0))
          = 4 * (1 + R 0 0 - R 1 1 - R 2 2) * R 1 0
        linarith
      · refine (Quat.rot11 _).trans ?_
        change (R 2 1 - R 1 2) ^ 2 - (1 + R 0 0 - R 1 1 - R 2 2) ^ 2 + (R 1 0 + R 0 1) ^ 2
          - (R 0 2 + R 2 0) ^ 2
          = 4 * (1 + R 0 0 - R 1 1 - R 2 2) * R 1 1
        linarith
      · refine (Quat.rot12 _).trans ?_
        change 2 * ((R 1 0 + R 0 1) * (R 0 2 + R 2 0)
          - (R 2 1 - R 1 2) * (1 + R 0 0 - R 1 1 - R 2 2))
          = 4 * (1 + R 0 0 - R 1 1 - R 2 2) * R 1 2
        linarith
      · refine (Quat.rot20 _).trans ?_
        change 2 * ((1 + R 0 0 - R 1 1 - R 2 2) * (R 0 2 + R 2 0)
          - (R 2 1 - R 1 2) * (R 1 0 + R 0 1))
          = 4 * (1 + R 0 0 - R 1 1 - R 2 2) * R 2 0
        linarith
      · refine (Quat.rot21 _).trans ?_
        change 2 * ((R 1 0 + R 0 1) * (R 0 2 + R 2 0)
          + (R 2 1 - R 1 2) * (1 + R 0 0 - R 1 1 - R 2 2))
          = 4 * (1 + R 0 0 - R 1 1 - R 2 2) * R 2 1
        linarith
      · refine (Quat.rot22 _).trans ?_
        change (R 2 1 - R 1 2) ^ 2 - (1 + R 0 0 - R 1 1 - R 2 2) ^ 2 - (R 1 0 + R 0 1) ^ 2
          + (R 0 2 + R 2 0) ^ 2
          = 4 * (1 + R 0 0 - R 1 1 - R 2 2) * R 2 2
        linarith
  · have ht : 0 < 1 - R 0 0 + R 1 1 - R 2 2 := by linarith
    refine scaled _ _ _ (Real.sq_sqrt ht.le) ht R ?_ ?_
    · change (R 0 2 - R 2 0) ^ 2 + (R 1 0 + R 0 1) ^ 2 + (1 - R 0 0 + R 1 1 - R 2 2) ^ 2
        + (R 2 1 + R 1 2) ^ 2 = _
      linarith
    · intro i j
      fin_cases i <;> fin_cases j
      · refine (Quat.rot00 _).trans ?_
        change (R 0 2 - R 2 0) ^ 2 + (R 1 0 + R 0 1) ^ 2 - (1 - R 0 0 + R 1 1 - R 2 2) ^ 2
          - (R 2 1 + R 1 2) ^ 2
          = 4 * (1 - R 0 0 + R 1 1 - R 2 2) * R 0 0
        linarith
      · refine (Quat.rot01 _).trans ?_
        change 2 * ((R 1 0 + R 0 1) * (1 - R 0 0 + R 1 1 - R 2 2)
          - (R 0 2 - R 2 0) * (R 2 1 + R 1 2))
          = 4 * (1 - R 0 0 + R 1 1 - R 2 2) * R 0 1
        linarith
      · refine (Quat.rot02 _).trans ?_
        change 2 * ((R 1 0 + R 0 1) * (R 2 1 + R 1 2)
          + (R 0 2 - R 2 0) * (1 - R 0 0 + R 1 1 - R 2 2))
          = 4 * (1 - R 0 0 + R 1 1 - R 2 2) * R 0 2
        linarith
      · refine (Quat.rot10 _).trans ?_
        change 2 * ((R 1 0 + R 0 1) * (1 - R 0 0 + R 1 1 - R 2 2)
          + (R 0 2 - R 2 0) * (R 2 1 + R 1 2))
          = 4 * (1 - R 0 0 + R 1 1 - R 2 2) * R 1 0
        linarith
      · refine (Quat.rot11 _).trans ?_
        change (R 0 2 - R 2 0) ^ 2 - (R 1 0 + R 0 1) ^ 2 + (1 - R 0 0 + R 1 1 - R 2 2) ^ 2
          - (R 2 1 + R 1 2) ^ 2
          = 4 * (1 - R 0 0 + R 1 1 - R 2 2) * R 1 1
        linarith
      · refine (Quat.rot12 _).trans ?_
        change 2 * ((1 - R 0 0 + R 1 1 - R 2 2) * (R 2 1 + R 1 2)
          - (R 0 2 - R 2 0) * (R 1 0 + R 0 1))
          = 4 * (1 - R 0 0 + R 1 1 - R 2 2) * R 1 2
        linarith
      · refine (Quat.rot20 _).trans ?_
        change 2 * ((R 1 0 + R 0 1) * (R 2 1 + R 1 2)
          - (R 0 2 - R 2 0) * (1 - R 0 0 + R 1 1 - R 2 2))
          = 4 * (1 - R 0 0 + R 1 1 - R 2 2) * R 2 0
        linarith
      · refine (Quat.rot21 _).trans ?_
        change 2 * ((1 - R 0 0 + R 1 1 - R 2 2) * (R 2 1 + R 1 2)
          + (R 0 2 - R 2 0) * (R 1 0 + R 0 1))
          = 4 * (1 - R 0 0 + R 1 1 - R 2 2) * R 2 1
        linarith
      · refine (Quat.rot22 _).trans ?_
        change (R 0 2 - R 2 0) ^ 2 - (R 1 0 + R 0 1) ^ 2 - (1 - R 0 0 + R 1 1 - R 2 2) ^ 2
          + (R 2 1 + R 1 2) ^ 2
          = 4 * (1 - R 0 0 + R 1 1 - R 2 2) * R 2 2
        linarith
  · have ht : 0 < 1 - R 0 0 - R 1 1 + R 2 2 := by linarith
    refine scaled _ _ _ (Real.sq_sqrt ht.le) ht R ?_ ?_
    · change (R 1 0 - R 0 1) ^ 2 + (R 0 2 + R 2 0) ^ 2 + (R 2 1 + R 1 2) ^ 2
        + (1 - R 0 0 - R 1 1 + R 2 2) ^ 2 = _
      linarith
    · intro i j
      fin_cases i <;> fin_cases j
      · refine (Quat.rot00 _).trans ?_
        change (R 1 0 - R 0 1) ^ 2 + (R 0 2 + R 2 0) ^ 2 - (R 2 1 + R 1 2) ^ 2
          - (1 - R 0 0 - R 1 1 + R 2 2) ^ 2
          = 4 * (1 - R 0 0 - R 1 1 + R 2 2) * R 0 0
        linarith
      · refine (Quat.rot01 _).trans ?_
        change 2 * ((R 0 2 + R 2 0) * (R 2 1 + R 1 2)
          - (R 1 0 - R 0 1) * (1 - R 0 0 - R 1 1 + R 2 2))
          = 4 * (1 - R 0 0 - R 1 1 + R 2 2) * R 0 1
        linarith
      · refine (Quat.rot02 _).trans ?_
        change 2 * ((R 0 2 + R 2 0) * (1 - R 0 0 - R 1 1 + R 2 2)
          + (R 1 0 - R 0 1) * (R 2 1 + R 1 2))
          = 4 * (1 - R 0 0 - R 1 1 + R 2 2) * R 0 2
        linarith
      · refine (Quat.rot10 _).trans ?_
        change 2 * ((R 0 2 + R 2 0) * (R 2 1 + R 1 2)
          + (R 1 0 - R 0 1) * (1 - R 0 0 - R 1 1 + R 2 2))
          = 4 * (1 - R 0 0 - R 1 1 + R 2 2) * R 1 0
        linarith
      · refine (Quat.rot11 _).trans ?_
        change (R 1 0 - R 0 1) ^ 2 - (R 0 2 + R 2 0) ^ 2 + (R 2 1 + R 1 2) ^ 2
          - (1 - R 0 0 - R 1 1 + R 2 2) ^ 2
          = 4 * (1 - R 0 0 - R 1 1 + R 2 2) * R 1 1
        linarith
      · refine (Quat.rot12 _).trans ?_
        change 2 * ((R 2 1 + R 1 2) * (1 - R 0 0 - R 1 1 + R 2 2)
          - (R 1 0 - R 0 1) * (R 0 2 + R 2 0))
          = 4 * (1 - R 0 0 - R 1 1 + R 2 2) * R 1 2
        linarith
      · refine (Quat.rot20 _).trans ?_
        change 2 * ((R 0 2 + R 2 0) * (1 - R 0 0 - R 1 1 + R 2 2)
          - (R 1 0 - R 0 1) * (R 2 1 + R 1 2))
          = 4 * (1 - R 0 0 - R 1 1 + R 2 2) * R 2 0
        linarith
      · refine (Quat.rot21 _).trans ?_
        change 2 * ((R 2 1 + R 1 2) * (1 - R 0 0 - R 1 1 + R 2 2)
          + (R 1 0 - R 0 1) * (R 0 2 + R 2 0))
          = 4 * (1 - R 0 0 - R 1 1 + R 2 2) * R 2 1
        linarith
      · refine (Quat.rot22 _).trans ?_
        change (R 1 0 - R 0 1) ^ 2 - (R 0 2 + R 2 0) ^ 2 - (R 2 1 + R 1 2) ^ 2
          + (1 - R 0 0 - R 1 1 + R 2 2) ^ 2
          = 4 * (1 - R 0 0 - R 1 1 + R 2 2) * R 2 2
        linarith
  · have ht : 0 < 1 + R 0 0 + R 1 1 + R 2 2 := by linarith
    refine scaled _ _ _ (Real.sq_sqrt ht.le) ht R ?_ ?_
    · change (1 + R 0 0 + R 1 1 + R 2 2) ^ 2 + (R 2 1 - R 1 2) ^ 2 + (R 0 2 - R 2 0) ^ 2
        + (R 1 0 - R 0 1) ^ 2 = _
      linarith
    · intro i j
      fin_cases i <;> fin_cases j
      · refine (Quat.rot00 _).trans ?_
        change (1 + R 0 0 + R 1 1 + R 2 2) ^ 2 + (R 2 1 - R 1 2) ^ 2 - (R 0 2 - R 2 0) ^ 2
          - (R 1 0 - R 0 1) ^ 2
          = 4 * (1 + R 0 0 + R 1 1 + R 2 2) * R 0 0
        linarith
      · refine (Quat.rot01 _).trans ?_
        change 2 * ((R 2 1 - R 1 2) * (R 0 2 - R 2 0)
          - (1 + R 0 0 + R 1 1 + R 2 2) * (R 1 0 - R 0 1))
          = 4 * (1 + R 0 0 + R 1 1 + R 2 2) * R 0 1
        linarith
      · refine (Quat.rot02 _).trans ?_
        change 2 * ((R 2 1 - R 1 2) * (R 1 0 - R 0 1)
          + (1 + R 0 0 + R 1 1 + R 2 2) * (R 0 2 - R 2 0))
          = 4 * (1 + R 0 0 + R 1 1 + R 2 2) * R 0 2
        linarith
      · refine (Quat.rot10 _).trans ?_
        change 2 * ((R 2 1 - R 1 2) * (R 0 2 - R 2 0)
          + (1 + R 0 0 + R 1 1 + R 2 2) * (R 1 0 - R 0 1))
          = 4 * (1 + R 0 0 + R 1 1 + R 2 2) * R 1 0
        linarith
      · refine (Quat.rot11 _).trans ?_
        change (1 + R 0 0 + R 1 1 + R 2 2) ^ 2 - (R 2 1 - R 1 2) ^ 2 + (R 0 2 - R 2 0) ^ 2
          - (R 1 0 - R 0 1) ^ 2
          = 4 * (1 + R 0 0 + R 1 1 + R 2 2) * R 1 1
        linarith
      · refine (Quat.rot12 _).trans ?_
        change 2 * ((R 0 2 - R 2 0) * (R 1 0 - R 0 1)
          - (1 + R 0 0 + R 1 1 + R 2 2) * (R 2 1 - R 1 2))
          = 4 * (1 + R 0 0 + R 1 1 + R 2 2) * R 1 2
        linarith
      · refine (Quat.rot20 _).trans ?_
        change 2 * ((R 2 1 - R 1 2) * (R 1 0 - R 0 1)
          - (1 + R 0 0 + R 1 1 + R 2 2) * (R 0 2 - R 2 0))
          = 4 * (1 + R 0 0 + R 1 1 + R 2 2) * R 2 0
        linarith
      · refine (Quat.rot21 _).trans ?_
        change 2 * ((R 0 2 - R 2 0) * (R 1 0 - R 0 1)
          + (1 + R 0 0 + R 1 1 + R 2 2) * (R 2 1 - R 1 2))
          = 4 * (1 + R 0 0 + R 1 1 + R 2 2) * R 2 1
        linarith
      · refine (Quat.rot22 _).trans ?_
        change (1 + R 0 0 + R 1 1 + R 2 2) ^ 2 - (R 2 1 - R 1 2) ^ 2 - (R 0 2 - R 2 0) ^ 2
          + (R 1 0 - R 0 1) ^ 2
          = 4 * (1 + R 0 0 + R 1 1 + R 2 2) * R 2 2
        linarith

/-- a rotation by 120° about (1,1,1) (permutation of the axes): branch 4 -/
example : (⟨![![0, 0, 1], ![1, 0, 0], ![0, 1, 0]]⟩ : Mat 3 ℝ).toM ∈
    Matrix.specialOrthogonalGroup (Fin 3) ℝ := by
  rw [mem_SO3_iff]
  apply orth3_of
  all_goals (simp)

theorem C50_round_trip [RealParams] (q : Quat ℝ) (hq : normSq q.toH = 1) :
    (Quat.from_rotation q.to_rotation).toH = q.toH ∨
    (Quat.from_rotation q.to_rotation).toH = -q.toH := by
  have h := C48_to_rotation q q hq
  have h' := C49_from_rotation q.to_rotation ((mem_SO3_iff _).2 ⟨h.1, h.2.1⟩)
  exact (C48_double_cover _ _ h'.1 hq).1 h'.2

example : normSq (Quat.new_from (3 / 5) 0 (4 / 5) 0 : Quat ℝ).toH = 1 := by
  rw [Quat.unit_iff]
  change (3 / 5 : ℝ) ^ 2 + 0 ^ 2 + (4 / 5) ^ 2 + 0 ^ 2 = 1
  norm_num

/-! ## C51 Axis and angle -/

theorem C51_rotation [P : RealParams] (theta phi : ℝ) (v : Vec 3 ℝ) :
    ((∃ e, Quat.rotation theta v = .error e) ↔ v = V3.zero) ∧
    (∀ q, Quat.rotation theta v = .ok q →
      normSq q.toH = 1 ∧ q.mulVec v = v ∧
      (∀ u : Vec 3 ℝ, (∀ i, v i = V3.norm2 v * u i) →
        q.to_rotation = rotation_from_axis_angle u theta) ∧
      ∃ p r, Quat.rotation phi v = .ok p ∧ Quat.rotation (theta + phi) v = .ok r ∧
        (q.mul p).toH = r.toH) := by
  rw [Quat.rotation_eq]
  by_cases h : V3.norm2 v = 0
  · simp only [h, if_true]
    exact ⟨⟨fun _ => (V3.norm2_zero v).1 h, fun _ => ⟨_, rfl⟩⟩, fun q hq => nomatch hq⟩
  · have hv : v ≠ V3.zero := fun hv => h ((V3.norm2_zero v).2 hv)
    simp only [h, if_false, hv, iff_false, not_exists]
    refine ⟨by simp, ?_⟩
    rintro q hq
    obtain rfl := Except.ok.inj hq
    have hn2 := V3.norm2_sq v
    have hr (x : ℝ) : Quat.rotation x v = .ok ⟨Real.cos (x / 2),
        ⟨fun i => v i / V3.norm2 v * Real.sin (x / 2)⟩, true⟩ := by rw [Quat.rotation_eq, if_neg h]
    generalize V3.norm2 v = n at *
    have hu : ∃ u : Vec 3 ℝ, ∀ i, v i / n = u i := ⟨⟨fun i => v i / n⟩, fun i => rfl⟩
    obtain ⟨u, hu⟩ := hu
    have hvu (i : Fin 3) : v i = n * u i := by rw [← hu]; field_simp
    have hu2 : u 0 ^ 2 + u 1 ^ 2 + u 2 ^ 2 = 1 := by
      rw [hvu, hvu, hvu] at hn2
      have : n ^ 2 * (u 0 ^ 2 + u 1 ^ 2 + u 2 ^ 2 - 1) = 0 := by linear_combination -hn2
      rcases mul_eq_zero.1 this with h1 | h1
      · exact absurd h1 (pow_ne_zero _ h)
      · linarith
    simp only [hu] at hr ⊢
    have hsc := Real.sin_sq_add_cos_sq (theta / 2)
    refine ⟨?_, ?_, ?_, ?_⟩
    · rw [Quat.unit_iff]
      change Real.cos (theta / 2) ^ 2 + (u 0 * Real.sin (theta / 2)) ^ 2
        + (u 1 * Real.sin (theta / 2)) ^ 2 + (u 2 * Real.sin (theta / 2)) ^ 2 = 1
      linear_combination hsc + Real.sin (theta / 2) ^ 2 * hu2
    · refine Vec.ext3 ?_ ?_ ?_ <;> simp only [Quat.mulVec0, Quat.mulVec1, Quat.mulVec2, hvu] <;> ring
    · intro u' hu'
      have huu : u' = u := Vec.ext (funext fun i => by
        have := (hu' i).symm.trans (hvu i)
        exact mul_left_cancel₀ h this)
      subst huu
      have hs : Real.sin theta = 2 * Real.sin (theta / 2) * Real.cos (theta / 2) := by
        rw [← Real.sin_two_mul]; congr 1; ring
      have hc : Real.cos theta = 2 * Real.cos (theta / 2) ^ 2 - 1 := by
        rw [← Real.cos_two_mul]; congr 1; ring
      have key (i j : Fin 3) : rotation_from_axis_angle u' theta i j =
          (M33.one : Mat 3 ℝ) i j + skew_from_vec u' i j * Real.sin theta
          + (skew_from_vec u' i 0 * skew_from_vec u' 0 j + skew_from_vec u' i 1 * skew_from_vec u' 1 j
            + skew_from_vec u' i 2 * skew_from_vec u' 2 j) * (1 - Real.cos theta) := by
        unfold rotation_from_axis_angle
        rw [M33.add_apply, M33.add_apply, M33.smul_apply, M33.smul_apply, M33.mul_apply3]
        rfl
      generalize Real.sin (theta / 2) = s at *
      generalize Real.cos (theta / 2) = c at *
      refine Mat.ext3 ?_ ?_ ?_ ?_ ?_ ?_ ?_ ?_ ?_ <;> rw [key, hs, hc]
      · rw [Quat.rot00]
        change c ^ 2 + (u' 0 * s) ^ 2 - (u' 1 * s) ^ 2 - (u' 2 * s) ^ 2 =
          1 + 0 * (2 * s * c) + (0 * 0 + -u' 2 * u' 2 + u' 1 * -u' 1) * (1 - (2 * c ^ 2 - 1))
        linear_combination (1 - 2 * u' 1 ^ 2 - 2 * u' 2 ^ 2) * hsc + s ^ 2 * hu2
      · rw [Quat.rot01]
        change 2 * ((u' 0 * s) * (u' 1 * s) - c * (u' 2 * s)) =
          0 + -u' 2 * (2 * s * c) + (0 * -u' 2 + -u' 2 * 0 + u' 1 * u' 0) * (1 - (2 * c ^ 2 - 1))
        linear_combination 2 * u' 0 * u' 1 * hsc
      · rw [Quat.rot02]
        change 2 * ((u' 0 * s) * (u' 2 * s) + c * (u' 1 * s)) =
          0 + u' 1 * (2 * s * c) + (0 * u' 1 + -u' 2 * -u' 0 + u' 1 * 0) * (1 - (2 * c ^ 2 - 1))
        linear_combination 2 * u' 0 * u' 2 * hsc
      · rw [Quat.rot10]
        change 2 * ((u' 0 * s) * (u' 1 * s) + c * (u' 2 * s)) =
          0 + u' 2 * (2 * s * c) + (u' 2 * 0 + 0 * u' 2 + -u' 0 * -u' 1) * (1 - (2 * c ^ 2 - 1))
        linear_combination 2 * u' 0 * u' 1 * hsc
      · rw [Quat.rot11]
        change c ^ 2 - (u' 0 * s) ^ 2 + (u' 1 * s) ^ 2 - (u' 2 * s) ^ 2 =
          1 + 0 * (2 * s * c) + (u' 2 * -u' 2 + 0 * 0 + -u' 0 * u' 0) * (1 - (2 * c ^ 2 - 1))
        linear_combination (1 - 2 * u' 0 ^ 2 - 2 * u' 2 ^ 2) * hsc + s ^ 2 * hu2
      · rw [Quat.rot12]
        change 2 * ((u' 1 * s) * (u' 2 * s) - c * (u' 0 * s)) =
          0 + -u' 0 * (2 * s * c) + (u' 2 * u' 1 + 0 * -u' 0 + -u' 0 * 0) * (1 - (2 * c ^ 2 - 1))
        linear_combination 2 * u' 1 * u' 2 * hsc
      · rw [Quat.rot20]
        change 2 * ((u' 0 * s) * (u' 2 * s) - c * (u' 1 * s)) =
          0 + -u' 1 * (2 * s * c) + (-u' 1 * 0 + u' 0 * u' 2 + 0 * -u' 1) * (1 - (2 * c ^ 2 - 1))
        linear_combination 2 * u' 0 * u' 2 * hsc
      · rw [Quat.rot21]
        change 2 * ((u' 1 * s) * (u' 2 * s) + c * (u' 0 * s)) =
          0 + u' 0 * (2 * s * c) + (-u' 1 * -u' 2 + u' 0 * 0 + 0 * u' 0) * (1 - (2 * c ^ 2 - 1))
        linear_combination 2 * u' 1 * u' 2 * hsc
      · rw [Quat.rot22]
        change c ^ 2 - (u' 0 * s) ^ 2 - (u' 1 * s) ^ 2 + (u' 2 * s) ^ 2 =
          1 + 0 * (2 * s * c) + (-u' 1 * u' 1 + u' 0 * -u' 0 + 0 * 0) * (1 - (2 * c ^ 2 - 1))
        linear_combination (1 - 2 * u' 0 ^ 2 - 2 * u' 1 ^ 2) * hsc + s ^ 2 * hu2
    · refine ⟨⟨Real.cos (phi / 2), ⟨fun i => u i * Real.sin (phi / 2)⟩, true⟩,
        ⟨Real.cos ((theta + phi) / 2), ⟨fun i => u i * Real.sin ((theta + phi) / 2)⟩, true⟩, ?_, ?_, ?_⟩
      · exact hr phi
      · exact hr (theta + phi)
      · rw [H_ext_iff]
        simp only [Quat.toH_re, Quat.toH_imI, Quat.toH_imJ, Quat.toH_imK, Quat.mul_q0, Quat.mul_qi,
          Quat.mul_qj, Quat.mul_qk]
        rw [add_div, Real.cos_add, Real.sin_add]
        refine ⟨?_, ?_, ?_, ?_⟩
        · linear_combination -Real.sin (theta / 2) * Real.sin (phi / 2) * hu2
        · ring
        · ring
        · ring

/-- `rotation_norm_encoded` -/
theorem C51_norm_encoded [P : RealParams] (v : Vec 3 ℝ) :
    (P.eps ≤ V3.norm2 v → Quat.rotation (V3.norm2 v) v = .ok (Quat.rotation_norm_encoded v)) ∧
    (V3.norm2 v < P.eps → (Quat.rotation_norm_encoded v).toH = 1) := by
  have he := P.eps_pos
  have hn : 0 ≤ V3.norm2 v := Real.sqrt_nonneg _
  rw [Quat.rotation_eq]
  unfold Quat.rotation_norm_encoded
  simp only [nearly_zero_eq, abs_of_nonneg hn]
  constructor
  · intro h
    have h0 : V3.norm2 v ≠ 0 := by linarith
    simp only [h0, if_false, not_lt.2 h, decide_false, Bool.not_false, if_true]
    refine congrArg Except.ok (congrArg (fun q => (⟨Real.cos (V3.norm2 v / 2), q, true⟩ : Quat ℝ)) ?_)
    refine Vec.ext (funext fun i => Eq.trans ?_ (V3.smul_apply _ _ _).symm)
    change v i / V3.norm2 v * Real.sin (V3.norm2 v / 2) = v i * (Real.sin (V3.norm2 v / 2) / V3.norm2 v)
    ring
  · intro h
    simp only [h, decide_true, Bool.not_true, Bool.false_eq_true, if_false]
    rfl

/-- the hypotheses are met by ordinary vectors -/
example [P : RealParams] : P.eps ≤ V3.norm2 (⟨![3, 0, 4]⟩ : Vec 3 ℝ) := by
  have h := V3.norm2_sq (⟨![3, 0, 4]⟩ : Vec 3 ℝ)
  have h5 : V3.norm2 (⟨![3, 0, 4]⟩ : Vec 3 ℝ) ^ 2 = 25 := by
    rw [h]; change (3 : ℝ) ^ 2 + 0 ^ 2 + 4 ^ 2 = 25; norm_num
  have hn : 0 ≤ V3.norm2 (⟨![3, 0, 4]⟩ : Vec 3 ℝ) := Real.sqrt_nonneg _
  have := P.eps_le
  nlinarith

/-! ## C52 `get_axis`, `get_angle` -/

theorem C52_axis_angle [P : RealParams] (q : Quat ℝ) (hq : normSq q.toH = 1) :
    (q.get_axis = none ↔ |Real.sin (q.get_angle / 2)| ≤ P.eps) ∧
    (|Real.sin (q.get_angle / 2)| = V3.norm2 q.imag) ∧
    (P.eps < V3.norm2 q.imag →
      ∃ u r, q.get_axis = some u ∧ V3.norm2 u = 1 ∧ Quat.rotation q.get_angle u = .ok r ∧
        r.toH = q.toH) := by
  have he := P.eps_pos
  have he1 := P.eps_le
  have hu := (Quat.unit_iff q).1 hq
  -- normalizing changes nothing but the flag
  have hnorm : ∃ b, q.normalize = some ⟨q.q0, q.q, b⟩ := by
    unfold Quat.normalize
    by_cases hf : q.normalized = true
    · refine ⟨true, ?_⟩
      simp only [hf, if_true]
      exact congrArg some (by cases q; simp_all)
    · refine ⟨true, ?_⟩
      have h1 : q.norm2 = 1 := by rw [Quat.norm2_eq, hq, Real.sqrt_one]
      have h2 : ¬ (1 : ℝ) < P.eps := by norm_num at he1 ⊢; linarith
      simp only [hf, Bool.false_eq_true, if_false, h1, nearly_zero_eq, abs_one, h2, decide_false,
        Bool.not_false, if_true]
      refine congrArg some ?_
      refine Quat.ext (div_one q.q0) ?_ rfl
      exact Vec.ext (funext fun i => (V3.sdiv_apply _ _ _).trans (div_one _))
  obtain ⟨b, hb⟩ := hnorm
  have hn0 : 0 ≤ V3.norm2 q.q := Real.sqrt_nonneg _
  have hn2 := V3.norm2_sq q.q
  have hsc := arg_sin_cos q.q0 (V3.norm2 q.q) (by rw [hn2]; linarith)
  have hang (b : Bool) : (⟨q.q0, q.q, b⟩ : Quat ℝ).get_angle = 2 * Complex.arg ⟨q.q0, V3.norm2 q.q⟩ := by
    change (1 + 1) * Complex.arg ⟨q.q0, V3.norm2 q.q⟩ = _
    rw [one_add_one_eq_two]
  have hhalf (b : Bool) : (⟨q.q0, q.q, b⟩ : Quat ℝ).get_angle / 2 = Complex.arg ⟨q.q0, V3.norm2 q.q⟩ := by
    rw [hang]; ring
  have hq' : q.get_angle / 2 = Complex.arg ⟨q.q0, V3.norm2 q.q⟩ := hhalf q.normalized
  have hax : q.get_axis = if P.eps < V3.norm2 q.q then some (V3.sdiv q.q (V3.norm2 q.q)) else none := by
    unfold Quat.get_axis
    rw [hb]
    simp only [rfloat_lit2, hhalf, rfloat_sin, hsc.1, rord_lt, rabs_abs, abs_of_nonneg hn0,
      rfloat_epsilon, decide_eq_true_eq]
  refine ⟨?_, ?_, ?_⟩
  · rw [hax, hq', hsc.1, abs_of_nonneg hn0]
    split_ifs with h
    · simp [h]
    · simpa using h
  · rw [hq', hsc.1, abs_of_nonneg hn0]; rfl
  · intro h
    have h : P.eps < V3.norm2 q.q := h
    have hne : V3.norm2 q.q ≠ 0 := by linarith
    have hu1 : V3.norm2 (V3.sdiv q.q (V3.norm2 q.q)) = 1 := by
      have hs := V3.norm2_sq (V3.sdiv q.q (V3.norm2 q.q))
      rw [V3.sdiv_apply, V3.sdiv_apply, V3.sdiv_apply] at hs
      have : V3.norm2 (V3.sdiv q.q (V3.norm2 q.q)) ^ 2 = 1 := by
        rw [hs, div_pow, div_pow, div_pow, ← add_div, ← add_div, ← hn2, div_self (pow_ne_zero _ hne)]
      have hp : 0 ≤ V3.norm2 (V3.sdiv q.q (V3.norm2 q.q)) := Real.sqrt_nonneg _
      rcases mul_self_eq_one_iff.1 ((sq _).symm.trans this) with h1 | h1 <;> linarith
    refine ⟨V3.sdiv q.q (V3.norm2 q.q), ⟨Real.cos (q.get_angle / 2),
      ⟨fun i => V3.sdiv q.q (V3.norm2 q.q) i / 1 * Real.sin (q.get_angle / 2)⟩, true⟩,
      by rw [hax, if_pos h], hu1, ?_, ?_⟩
    · rw [Quat.rotation_eq, hu1, if_neg one_ne_zero]
    · have e (i : Fin 3) : V3.sdiv q.q (V3.norm2 q.q) i / 1 * Real.sin (q.get_angle / 2) = q.q i := by
        rw [hq', hsc.1, V3.sdiv_apply]
        field_simp
      rw [H_ext_iff]
      refine ⟨?_, e 0, e 1, e 2⟩
      change Real.cos (q.get_angle / 2) = q.q0
      rw [hq', hsc.2]

/-- a unit quaternion with imaginary norm 4/5 -/
example [P : RealParams] : P.eps < V3.norm2 (Quat.new_from (3 / 5) 0 (4 / 5) 0 : Quat ℝ).imag := by
  have h := V3.norm2_sq (Quat.new_from (3 / 5) 0 (4 / 5) 0 : Quat ℝ).imag
  have h5 : V3.norm2 (Quat.new_from (3 / 5) 0 (4 / 5) 0 : Quat ℝ).imag ^ 2 = 16 / 25 := by
    rw [h]; change (0 : ℝ) ^ 2 + (4 / 5) ^ 2 + 0 ^ 2 = 16 / 25; norm_num
  have hn : 0 ≤ V3.norm2 (Quat.new_from (3 / 5) 0 (4 / 5) 0 : Quat ℝ).imag := Real.sqrt_nonneg _
  have := P.eps_le
  nlinarith

/-! ## C118: axis and angle come back -/

private theorem arg_polar_unit (t : ℝ) (h1 : -Real.pi < t) (h2 : t ≤ Real.pi) :
    Complex.arg ⟨Real.cos t, Real.sin t⟩ = t := by
  have : (⟨Real.cos t, Real.sin t⟩ : ℂ) = Complex.cos t + Complex.sin t * Complex.I := by
    apply Complex.ext <;> simp [← Complex.ofReal_cos, ← Complex.ofReal_sin]
  rw [this, Complex.arg_cos_add_sin_mul_I ⟨h1, h2⟩]

/-- `get_angle` of the quaternion built by `rotation` is the angle, when this is between zero and a
full turn; `get_axis` is the normalised vector unless the half angle has a sine of at most EPSILON. -/
theorem C118_axis_angle [P : RealParams] (t : ℝ) (v : Vec 3 ℝ) (h0 : 0 ≤ t) (h1 : t ≤ 2 * Real.pi)
    (hv : v ≠ V3.zero) :
    ∃ q, Quat.rotation t v = .ok q ∧ q.get_angle = t ∧
      (P.eps < Real.sin (t / 2) →
        q.axis_angle = (some ⟨fun i => v i / √(v 0 ^ 2 + v 1 ^ 2 + v 2 ^ 2)⟩, t)) ∧
      (Real.sin (t / 2) ≤ P.eps → q.axis_angle = (none, t)) := by
  have hn : V3.norm2 v ≠ 0 := fun h => hv ((V3.norm2_zero v).1 h)
  have hs : 0 ≤ Real.sin (t / 2) := Real.sin_nonneg_of_nonneg_of_le_pi (by linarith) (by linarith)
  have hpi := Real.pi_pos
  refine ⟨_, by rw [Quat.rotation_eq, if_neg hn], ?_⟩
  have hq : V3.norm2 (⟨fun i => v i / V3.norm2 v * Real.sin (t / 2)⟩ : Vec 3 ℝ) = Real.sin (t / 2) := by
    rw [V3.norm2_eq_sqrt]
    change √((v 0 / V3.norm2 v * Real.sin (t / 2)) ^ 2 + (v 1 / V3.norm2 v * Real.sin (t / 2)) ^ 2
      + (v 2 / V3.norm2 v * Real.sin (t / 2)) ^ 2) = _
    rw [show (v 0 / V3.norm2 v * Real.sin (t / 2)) ^ 2 + (v 1 / V3.norm2 v * Real.sin (t / 2)) ^ 2
      + (v 2 / V3.norm2 v * Real.sin (t / 2)) ^ 2
      = (v 0 ^ 2 + v 1 ^ 2 + v 2 ^ 2) / V3.norm2 v ^ 2 * Real.sin (t / 2) ^ 2 by ring,
      ← V3.norm2_sq, div_self (pow_ne_zero 2 hn), one_mul, Real.sqrt_sq hs]
  have ha (b : Bool) : (⟨Real.cos (t / 2), ⟨fun i => v i / V3.norm2 v * Real.sin (t / 2)⟩, b⟩ :
      Quat ℝ).get_angle = t := by
    change (1 + 1) * Complex.arg ⟨Real.cos (t / 2),
      V3.norm2 (⟨fun i => v i / V3.norm2 v * Real.sin (t / 2)⟩ : Vec 3 ℝ)⟩ = t
    rw [hq, arg_polar_unit _ (by linarith) (by linarith)]
    ring
  refine ⟨ha _, ?_, ?_⟩
  · intro hlt
    refine Prod.ext ?_ (ha _)
    unfold Quat.axis_angle Quat.get_axis Quat.normalize
    simp only [if_true, ha, rfloat_lit2, rfloat_sin, rord_lt, rabs_abs, abs_of_nonneg hs,
      rfloat_epsilon, hlt, decide_true]
    refine congrArg some (Vec.ext (funext fun i => ?_))
    rw [V3.sdiv_apply, ← V3.norm2_eq_sqrt]
    have : Real.sin (t / 2) ≠ 0 := by linarith [P.eps_pos]
    exact mul_div_cancel_right₀ _ this
  · intro hle
    refine Prod.ext ?_ (ha _)
    unfold Quat.axis_angle Quat.get_axis Quat.normalize
    simp only [if_true, ha, rfloat_lit2, rfloat_sin, rord_lt, rabs_abs, abs_of_nonneg hs,
      rfloat_epsilon, not_lt.2 hle, decide_false, Bool.false_eq_true, if_false]

/-- A half turn about a vector that is not of length one. -/
example [P : RealParams] : (0 : ℝ) ≤ Real.pi ∧ Real.pi ≤ 2 * Real.pi ∧
    (⟨![1, 2, 3]⟩ : Vec 3 ℝ) ≠ V3.zero ∧ P.eps < Real.sin (Real.pi / 2) := by
  have hpi := Real.pi_pos
  have := P.eps_le
  refine ⟨hpi.le, by linarith, fun h => ?_, ?_⟩
  · have := congrArg (fun w : Vec 3 ℝ => w 0) h
    exact one_ne_zero (α := ℝ) this
  · rw [Real.sin_pi_div_two]
    norm_num at this
    linarith

/-! ## C53 Euler angles -/

theorem C53_from_euler_angles [RealParams] (yaw pitch roll : ℝ) :
    normSq (Quat.from_euler_angles yaw pitch roll).toH = 1 ∧
    (Quat.from_euler_angles yaw pitch roll).to_rotation = euler_to_rotation yaw pitch roll none ∧
    euler_to_rotation yaw pitch roll none = M33.mul (M33.mul (rotz yaw) (roty pitch)) (rotx roll) := by
  refine ⟨(C44_flag_partial Quat.one 0 yaw pitch roll V3.zero).2.2.2.2.2.1.2, ?_, rfl⟩
  have hs (x : ℝ) : Real.sin x = 2 * Real.sin (x / 2) * Real.cos (x / 2) := by
    rw [← Real.sin_two_mul]; congr 1; ring
  have hc (x : ℝ) : Real.cos x = Real.cos (x / 2) ^ 2 - Real.sin (x / 2) ^ 2 := by
    rw [← Real.cos_two_mul']; congr 1; ring
  have h1 (x : ℝ) := Real.sin_sq_add_cos_sq (x / 2)
  let qz : Quat ℝ := Quat.new_from (Real.cos (yaw / 2)) 0 0 (Real.sin (yaw / 2))
  let qy : Quat ℝ := Quat.new_from (Real.cos (pitch / 2)) 0 (Real.sin (pitch / 2)) 0
  let qx : Quat ℝ := Quat.new_from (Real.cos (roll / 2)) (Real.sin (roll / 2)) 0 0
  have uz : normSq qz.toH = 1 := by
    rw [Quat.unit_iff]
    change Real.cos (yaw / 2) ^ 2 + 0 ^ 2 + 0 ^ 2 + Real.sin (yaw / 2) ^ 2 = 1
    linear_combination h1 yaw
  have uy : normSq qy.toH = 1 := by
    rw [Quat.unit_iff]
    change Real.cos (pitch / 2) ^ 2 + 0 ^ 2 + Real.sin (pitch / 2) ^ 2 + 0 ^ 2 = 1
    linear_combination h1 pitch
  have ux : normSq qx.toH = 1 := by
    rw [Quat.unit_iff]
    change Real.cos (roll / 2) ^ 2 + Real.sin (roll / 2) ^ 2 + 0 ^ 2 + 0 ^ 2 = 1
    linear_combination h1 roll
  have rz : qz.to_rotation = rotz yaw := by
    refine Mat.ext3 ?_ ?_ ?_ ?_ ?_ ?_ ?_ ?_ ?_
    · refine (Quat.rot00 _).trans ?_
      change Real.cos (yaw / 2) ^ 2 + 0 ^ 2 - 0 ^ 2 - Real.sin (yaw / 2) ^ 2 = Real.cos yaw
      rw [hc yaw]; ring
    · refine (Quat.rot01 _).trans ?_
      change 2 * (0 * 0 - Real.cos (yaw / 2) * Real.sin (yaw / 2)) = -Real.sin yaw
      rw [hs yaw]; ring
    · refine (Quat.rot02 _).trans ?_
      change 2 * (0 * Real.sin (yaw / 2) + Real.cos (yaw / 2) * 0) = 0
      ring
    · refine (Quat.rot10 _).trans ?_
      change 2 * (0 * 0 + Real.cos (yaw / 2) * Real.sin (yaw / 2)) = Real.sin yaw
      rw [hs yaw]; ring
    · refine (Quat.rot11 _).trans ?_
      change Real.cos (yaw / 2) ^ 2 - 0 ^ 2 + 0 ^ 2 - Real.sin (yaw / 2) ^ 2 = Real.cos yaw
      rw [hc yaw]; ring
    · refine (Quat.rot12 _).trans ?_
      change 2 * (0 * Real.sin (yaw / 2) - Real.cos (yaw / 2) * 0) = 0
      ring
    · refine (Quat.rot20 _).trans ?_
      change 2 * (0 * Real.sin (yaw / 2) - Real.cos (yaw / 2) * 0) = 0
      ring
    · refine (Quat.rot21 _).trans ?_
      change 2 * (0 * Real.sin (yaw / 2) + Real.cos (yaw / 2) * 0) = 0
      ring
    · refine (Quat.rot22 _).trans ?_
      change Real.cos (yaw / 2) ^ 2 - 0 ^ 2 - 0 ^ 2 + Real.sin (yaw / 2) ^ 2 = 1
      linear_combination h1 yaw
  have ry : qy.to_rotation = roty pitch := by
    refine Mat.ext3 ?_ ?_ ?_ ?_ ?_ ?_ ?_ ?_ ?_
    · refine (Quat.rot00 _).trans ?_
      change Real.cos (pitch / 2) ^ 2 + 0 ^ 2 - Real.sin (pitch / 2) ^ 2 - 0 ^ 2 = Real.cos pitch
      rw [hc pitch]; ring
    · refine (Quat.rot01 _).trans ?_
      change 2 * (0 * Real.sin (pitch / 2) - Real.cos (pitch / 2) * 0) = 0
      ring
    · refine (Quat.rot02 _).trans ?_
      change 2 * (0 * 0 + Real.cos (pitch / 2) * Real.sin (pitch / 2)) = Real.sin pitch
      rw [hs pitch]; ring
    · refine (Quat.rot10 _).trans ?_
      change 2 * (0 * Real.sin (pitch / 2) + Real.cos (pitch / 2) * 0) = 0
      ring
    · refine (Quat.rot11 _).trans ?_
      change Real.cos (pitch / 2) ^ 2 - 0 ^ 2 + Real.sin (pitch / 2) ^ 2 - 0 ^ 2 = 1
      linear_combination h1 pitch
    · refine (Quat.rot12 _).trans ?_
      change 2 * (Real.sin (pitch / 2) * 0 - Real.cos (pitch / 2) * 0) = 0
      ring
    · refine (Quat.rot20 _).trans ?_
      change 2 * (0 * 0 - Real.cos (pitch / 2) * Real.sin (pitch / 2)) = -Real.sin pitch
      rw [hs pitch]; ring
    · refine (Quat.rot21 _).trans ?_
      change 2 * (Real.sin (pitch / 2) * 0 + Real.cos (pitch / 2) * 0) = 0
      ring
    · refine (Quat.rot22 _).trans ?_
      change Real.cos (pitch / 2) ^ 2 - 0 ^ 2 - Real.sin (pitch / 2) ^ 2 + 0 ^ 2 = Real.cos pitch
      rw [hc pitch]; ring
  have rx : qx.to_rotation = rotx roll := by
    refine Mat.ext3 ?_ ?_ ?_ ?_ ?_ ?_ ?_ ?_ ?_
    · refine (Quat.rot00 _).trans ?_
      change Real.cos (roll / 2) ^ 2 + Real.sin (roll / 2) ^ 2 - 0 ^ 2 - 0 ^ 2 = 1
      linear_combination h1 roll
    · refine (Quat.rot01 _).trans ?_
      change 2 * (Real.sin (roll / 2) * 0 - Real.cos (roll / 2) * 0) = 0
      ring
    · refine (Quat.rot02 _).trans ?_
      change 2 * (Real.sin (roll / 2) * 0 + Real.cos (roll / 2) * 0) = 0
      ring
    · refine (Quat.rot10 _).trans ?_
      change 2 * (Real.sin (roll / 2) * 0 + Real.cos (roll / 2) * 0) = 0
      ring
    · refine (Quat.rot11 _).trans ?_
      change Real.cos (roll / 2) ^ 2 - Real.sin (roll / 2) ^ 2 + 0 ^ 2 - 0 ^ 2 = Real.cos roll
      rw [hc roll]; ring
    · refine (Quat.rot12 _).trans ?_
      change 2 * (0 * 0 - Real.cos (roll / 2) * Real.sin (roll / 2)) = -Real.sin roll
      rw [hs roll]; ring
    · refine (Quat.rot20 _).trans ?_
      change 2 * (Real.sin (roll / 2) * 0 - Real.cos (roll / 2) * 0) = 0
      ring
    · refine (Quat.rot21 _).trans ?_
      change 2 * (0 * 0 + Real.cos (roll / 2) * Real.sin (roll / 2)) = Real.sin roll
      rw [hs roll]; ring
    · refine (Quat.rot22 _).trans ?_
      change Real.cos (roll / 2) ^ 2 - Real.sin (roll / 2) ^ 2 - 0 ^ 2 + 0 ^ 2 = Real.cos roll
      rw [hc roll]; ring
  have hprod : (Quat.from_euler_angles yaw pitch roll).toH = ((qz.mul qy).mul qx).toH := by
    rw [H_ext_iff]
    simp only [Quat.toH_re, Quat.toH_imI, Quat.toH_imJ, Quat.toH_imK, Quat.mul_q0, Quat.mul_qi,
      Quat.mul_qj, Quat.mul_qk, qx, qy, qz, Quat.new_from_0, Quat.new_from_1, Quat.new_from_2,
      Quat.new_from_3, Quat.from_euler_angles, one_add_one_eq_two, rfloat_sin, rfloat_cos]
    refine ⟨?_, Eq.trans (b := _ - _) rfl ?_, Eq.trans (b := _ + _) rfl ?_,
      Eq.trans (b := _ - _) rfl ?_⟩
    all_goals ring
  have hu : normSq ((qz.mul qy).mul qx).toH = 1 := by
    rw [Quat.toH_mul, Quat.toH_mul, map_mul, map_mul, uz, uy, ux]; norm_num
  have hE := (C44_flag_partial Quat.one 0 yaw pitch roll V3.zero).2.2.2.2.2.1.2
  rw [(C48_double_cover _ _ hE hu).2 (Or.inl hprod), (C48_to_rotation _ qx ux).2.2.1,
    (C48_to_rotation _ qy uy).2.2.1, rz, ry, rx]
  rfl

end StaticMath

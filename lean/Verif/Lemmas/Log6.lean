import Verif.Props.Lie6
import Verif.Props.IeeeExp

/-!
# The exact logarithm of a rigid motion, entry by entry
-/

namespace StaticMath

/-- A twist is the logarithm `matrix_log6` of its exponential. -/
private theorem log6_exp [P : RealParams] (X : Mat 4 ℝ) (hX : IsSe3 X) (N : ℝ) (he : P.eps ≤ N) (hpi : N < Real.pi)
    (hN2 : N ^ 2 = X 2 1 ^ 2 + X 0 2 ^ 2 + X 1 0 ^ 2) :
    ∃ H : Mat 4 ℝ, H.toM = NormedSpace.exp X.toM ∧ matrix_log6 H = X := by
  have hN : 0 < N := lt_of_lt_of_le P.eps_pos he
  have hsk : ∀ i j : Fin 3, X i.castSucc j.castSucc = -X j.castSucc i.castSucc := hX.skew
  have s01 : X 0 1 = -X 1 0 := hsk 0 1
  have s12 : X 1 2 = -X 2 1 := hsk 1 2
  have s20 : X 2 0 = -X 0 2 := hsk 2 0
  have s00 : X 0 0 = 0 := by have : X 0 0 = -X 0 0 := hsk 0 0; linarith
  have s11 : X 1 1 = 0 := by have : X 1 1 = -X 1 1 := hsk 1 1; linarith
  have s22 : X 2 2 = 0 := by have : X 2 2 = -X 2 2 := hsk 2 2; linarith
  have hN0 := hN.ne'
  let u : Vec 3 ℝ := ⟨![X 2 1 / N, X 0 2 / N, X 1 0 / N]⟩
  let v : Vec 3 ℝ := ⟨![X 0 3, X 1 3, X 2 3]⟩
  have hu : u 0 ^ 2 + u 1 ^ 2 + u 2 ^ 2 = 1 := by
    change (X 2 1 / N) ^ 2 + (X 0 2 / N) ^ 2 + (X 1 0 / N) ^ 2 = 1
    rw [div_pow, div_pow, div_pow, ← add_div, ← add_div, ← hN2, div_self (by positivity)]
  have hus : skew_from_vec (V3.smul u N) = ⟨![![0, -X 1 0, X 0 2], ![X 1 0, 0, -X 2 1], ![-X 0 2, X 2 1, 0]]⟩ := by
    have e0 : X 2 1 / N * N = X 2 1 := div_mul_cancel₀ _ hN0
    have e1 : X 0 2 / N * N = X 0 2 := div_mul_cancel₀ _ hN0
    have e2 : X 1 0 / N * N = X 1 0 := div_mul_cancel₀ _ hN0
    refine Mat.ext3 rfl ?_ ?_ ?_ rfl ?_ ?_ ?_ rfl
    exacts [congrArg Neg.neg e2, e1, e2, congrArg Neg.neg e0, congrArg Neg.neg e1, e0]
  have e : X = se3_from_parts (skew_from_vec (V3.smul u N)) v := by
    rw [hus]
    refine Mat.ext4 s00 s01 rfl rfl rfl s11 s12 rfl s20 rfl s22 rfl (hX.last 0) (hX.last 1) (hX.last 2) (hX.last 3)
  obtain ⟨H, hH, hl⟩ := ((C118_logarithms u v N hu hN hpi).2 he).2
  rw [← e] at hH hl
  obtain ⟨E, hE, -, hE2⟩ := (C81_matrix_exponential6_partial X).2.2 hX (by rw [← hN2, Real.sqrt_sq hN.le]; exact he)
  rw [hH] at hE
  obtain rfl := Except.ok.inj hE
  exact ⟨H, hE2, hl⟩

/-- The translation part of a twist of angle `N < π` from the translation part of its exponential. -/
theorem log6_entry [P : RealParams] (X : Mat 4 ℝ) (hX : IsSe3 X) (N : ℝ) (he : P.eps ≤ N) (hpi : N < Real.pi)
    (hN2 : N ^ 2 = X 2 1 ^ 2 + X 0 2 ^ 2 + X 1 0 ^ 2)
    (htr : NormedSpace.exp X.toM 0 0 + NormedSpace.exp X.toM 1 1 + NormedSpace.exp X.toM 2 2 = 1 + 2 * Real.cos N) (i : Fin 3) :
    X i.castSucc 3 = ∑ j : Fin 3, ((1 : Matrix (Fin 3) (Fin 3) ℝ) i j - X i.castSucc j.castSucc / 2 +
      (X i.castSucc 0 * X 0 j.castSucc + X i.castSucc 1 * X 1 j.castSucc + X i.castSucc 2 * X 2 j.castSucc) *
        (1 / N - 1 / Real.tan (N / 2) / 2) / N) * NormedSpace.exp X.toM j.castSucc 3 := by
  have hN : 0 < N := lt_of_lt_of_le P.eps_pos he
  obtain ⟨H, hH, hl⟩ := log6_exp X hX N he hpi hN2
  rw [← hH] at htr ⊢
  have ht : RFloat.acos ((M33.trace (get_parts_raw H).1 - 1) / (1 + 1) : ℝ) = N := by
    rw [trace3, rfloat_acos]
    change Real.arccos ((H.toM 0 0 + H.toM 1 1 + H.toM 2 2 - 1) / (1 + 1)) = N
    rw [htr, show (1 + 2 * Real.cos N - 1) / (1 + 1) = Real.cos N by ring, Real.arccos_cos hN.le hpi.le]
  obtain ⟨W, hW⟩ : ∃ W, W = matrix_log (get_parts_raw H).1 := ⟨_, rfl⟩
  by_cases hz : W.is_zero = true
  · exfalso
    have h21 : matrix_log6 H 2 1 = 0 := by unfold matrix_log6; simp only [← hW, hz]; rfl
    have h02 : matrix_log6 H 0 2 = 0 := by unfold matrix_log6; simp only [← hW, hz]; rfl
    have h10 : matrix_log6 H 1 0 = 0 := by unfold matrix_log6; simp only [← hW, hz]; rfl
    rw [hl] at h21 h02 h10
    rw [h21, h02, h10] at hN2
    have := pow_pos hN 2
    norm_num at hN2
    linarith
  · have e : matrix_log6 H = se3_from_parts W (M33.mulVec (M33.add (M33.sub M33.one (M33.sdiv W (1 + 1)))
        (M33.sdiv (M33.smul (M33.mul W W) (1 / N - 1 / RFloat.tan (N / (1 + 1)) / (1 + 1))) N)) (get_parts_raw H).2) := by
      unfold matrix_log6
      simp only [← hW, if_neg hz, ht]
      exact Mat.ext4 rfl rfl rfl rfl rfl rfl rfl rfl rfl rfl rfl rfl rfl rfl rfl rfl
    rw [hl, one_add_one_eq_two, rfloat_tan] at e
    have hWX : ∀ i j : Fin 3, W i j = X i.castSucc j.castSucc := by
      intro i j
      rw [e]
      fin_cases i <;> fin_cases j <;> rfl
    obtain ⟨γ, hγ⟩ : ∃ γ, γ = 1 / N - 1 / Real.tan (N / 2) / 2 := ⟨_, rfl⟩
    rw [← hγ] at e ⊢
    have r0 : ∀ j : Fin 3, X 0 j.castSucc = W 0 j := fun j => (hWX 0 j).symm
    have r1 : ∀ j : Fin 3, X 1 j.castSucc = W 1 j := fun j => (hWX 1 j).symm
    have r2 : ∀ j : Fin 3, X 2 j.castSucc = W 2 j := fun j => (hWX 2 j).symm
    have c0 : ∀ j : Fin 3, X j.castSucc 0 = W j 0 := fun j => (hWX j 0).symm
    have c1 : ∀ j : Fin 3, X j.castSucc 1 = W j 1 := fun j => (hWX j 1).symm
    have c2 : ∀ j : Fin 3, X j.castSucc 2 = W j 2 := fun j => (hWX j 2).symm
    have e3 : X i.castSucc 3 = M33.mulVec (M33.add (M33.sub M33.one (M33.sdiv W 2))
        (M33.sdiv (M33.smul (M33.mul W W) γ) N)) (get_parts_raw H).2 i := by
      conv_lhs => rw [e]
      fin_cases i <;> rfl
    have h03 : H.toM (Fin.castSucc 0) 3 = (get_parts_raw H).2 0 := rfl
    have h13 : H.toM (Fin.castSucc 1) 3 = (get_parts_raw H).2 1 := rfl
    have h23 : H.toM (Fin.castSucc 2) 3 = (get_parts_raw H).2 2 := rfl
    have ho : ∀ i j : Fin 3, (1 : Matrix (Fin 3) (Fin 3) ℝ) i j = (M33.one : Mat 3 ℝ) i j := fun i j => by
      rw [← M33.toM_one]
      rfl
    rw [e3]
    simp only [ho, r0, r1, r2, c0, c1, c2, ← hWX, Fin.sum_univ_three, h03, h13, h23]
    fin_cases i <;> rfl

end StaticMath

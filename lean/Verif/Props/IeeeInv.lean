import Verif.Lemmas.InvFlt

/-!
# C113: accuracy of `inverse()` in floating point

Generated by `tools/gen_props_ieee_inv.py`. `A.reM'` is the real matrix of the entries of `A`, and
`A.minorPer i j` the permanent of the magnitudes of the minor without row `i` and column `j`
(the size that the cofactor can have before cancellation).
-/

namespace StaticMath
open Flt

/-- Every entry of the computed inverse is the adjugate entry divided by the computed determinant up to
the stated error, and the entry of the true inverse up to that and the relative error of the determinant. -/
theorem C113_M22 {f : Fmt} [Libm f] (A B : Mat 2 (Flt f)) (h : M22.inverse A = .ok (some B)) (b : ℝ)
    (hb : ∀ i j, |(A i j).toReal| ≤ b) (hD : (M22.det A).IsFin) (hB : ∀ i j, (B i j).IsFin) (i j : Fin 2) :
    let D := (M22.det A).toReal
    let e := (((1 + f.u) ^ 2 - 1) * A.minorPer j i + (1 + f.u) ^ 2 * (f.eta * (0))) / |D| +
      f.eta * (1 + (1 + f.u) ^ 1 * (A.minorPer j i + f.eta * (0)))
    let E := ((1 + f.u) ^ 2 - 1) * (Matrix.of fun i j => |(A i j).toReal|).permanent +
      (1 + f.u) ^ 2 * (f.eta * (2))
    (2 : ℝ) ^ (1 - (f.p : ℤ)) ≤ |D| ∧ |(B i j).toReal - A.reM'.adjugate i j / D| ≤ e ∧
    (E < |D| → A.reM'.det ≠ 0 ∧ |(B i j).toReal - A.reM'⁻¹ i j| ≤ e + |A.reM'⁻¹ i j| * (E / |D|)) := by
  intro D e E
  obtain ⟨h0, hE⟩ := M22.inv_flt A B h b hb
  have hb0 : 0 ≤ b := (abs_nonneg _).trans (hb 0 0)
  obtain ⟨C, hC, hCe, -⟩ := hE i j
  have hf := hB i j
  rw [hC] at hf
  have hU : (0 : ℝ) ≤ 0 := by positivity
  have h1 : |(B i j).toReal - A.reM'.adjugate i j / D| ≤ e := by
    rw [hC]
    exact inv_entry_mul (d := 0) hD hf (A.adj_le i j) hU (hCe (isFin_of_mul hf).1)
  refine ⟨?_, h1, fun hlt => ?_⟩
  · by_contra hc
    rw [(nearly_zero_flt _).2 ⟨hD, not_le.1 hc⟩] at h0
    cases h0
  · obtain ⟨k1, k2⟩ := inv_true (C102_det_M22 A b hb hD) hlt h1
    refine ⟨k1, ?_⟩
    have hi : A.reM'⁻¹ i j = A.reM'.adjugate i j / (Matrix.of fun i j => (A i j).toReal).det := by
      rw [Matrix.inv_def, Matrix.smul_apply, smul_eq_mul, Ring.inverse_eq_inv', mul_comm, div_eq_mul_inv]
      rfl
    rw [hi]
    exact k2

/-- Every entry of the computed inverse is the adjugate entry divided by the computed determinant up to
the stated error, and the entry of the true inverse up to that and the relative error of the determinant. -/
theorem C113_M33 {f : Fmt} [Libm f] (A B : Mat 3 (Flt f)) (h : M33.inverse A = .ok (some B)) (b : ℝ)
    (hb : ∀ i j, |(A i j).toReal| ≤ b) (hD : (M33.det A).IsFin) (hB : ∀ i j, (B i j).IsFin) (i j : Fin 3) :
    let D := (M33.det A).toReal
    let e := (((1 + f.u) ^ 4 - 1) * A.minorPer j i + (1 + f.u) ^ 4 * (f.eta * (2))) / |D| +
      f.eta * (1 + (1 + f.u) ^ 3 * (A.minorPer j i + f.eta * (2)))
    let E := ((1 + f.u) ^ 5 - 1) * (Matrix.of fun i j => |(A i j).toReal|).permanent +
      (1 + f.u) ^ 5 * (f.eta * (3 + 6 * b))
    (2 : ℝ) ^ (1 - (f.p : ℤ)) ≤ |D| ∧ |(B i j).toReal - A.reM'.adjugate i j / D| ≤ e ∧
    (E < |D| → A.reM'.det ≠ 0 ∧ |(B i j).toReal - A.reM'⁻¹ i j| ≤ e + |A.reM'⁻¹ i j| * (E / |D|)) := by
  intro D e E
  obtain ⟨h0, hE⟩ := M33.inv_flt A B h b hb
  have hb0 : 0 ≤ b := (abs_nonneg _).trans (hb 0 0)
  obtain ⟨C, hC, hCe, -⟩ := hE i j
  have hf := hB i j
  rw [hC] at hf
  have hU : (0 : ℝ) ≤ 2 := by positivity
  have h1 : |(B i j).toReal - A.reM'.adjugate i j / D| ≤ e := by
    rw [hC]
    exact inv_entry_mul (d := 2) hD hf (A.adj_le i j) hU (hCe (isFin_of_mul hf).1)
  refine ⟨?_, h1, fun hlt => ?_⟩
  · by_contra hc
    rw [(nearly_zero_flt _).2 ⟨hD, not_le.1 hc⟩] at h0
    cases h0
  · obtain ⟨k1, k2⟩ := inv_true (C102_det_M33 A b hb hD) hlt h1
    refine ⟨k1, ?_⟩
    have hi : A.reM'⁻¹ i j = A.reM'.adjugate i j / (Matrix.of fun i j => (A i j).toReal).det := by
      rw [Matrix.inv_def, Matrix.smul_apply, smul_eq_mul, Ring.inverse_eq_inv', mul_comm, div_eq_mul_inv]
      rfl
    rw [hi]
    exact k2

/-- Every entry of the computed inverse is the adjugate entry divided by the computed determinant up to
the stated error, and the entry of the true inverse up to that and the relative error of the determinant. -/
theorem C113_M44 {f : Fmt} [Libm f] (A B : Mat 4 (Flt f)) (h : M44.inverse A = .ok (some B)) (b : ℝ)
    (hb : ∀ i j, |(A i j).toReal| ≤ b) (hD : (M44.det A).IsFin) (hB : ∀ i j, (B i j).IsFin) (i j : Fin 4) :
    let D := (M44.det A).toReal
    let e := (((1 + f.u) ^ 7 - 1) * A.minorPer j i + (1 + f.u) ^ 7 * (f.eta * (3 + 6 * b))) / |D| +
      f.eta * (1 + (1 + f.u) ^ 6 * (A.minorPer j i + f.eta * (3 + 6 * b)))
    let E := ((1 + f.u) ^ 26 - 1) * (Matrix.of fun i j => |(A i j).toReal|).permanent +
      (1 + f.u) ^ 26 * (f.eta * (24 * (1 + b + b ^ 2)))
    (2 : ℝ) ^ (1 - (f.p : ℤ)) ≤ |D| ∧ |(B i j).toReal - A.reM'.adjugate i j / D| ≤ e ∧
    (E < |D| → A.reM'.det ≠ 0 ∧ |(B i j).toReal - A.reM'⁻¹ i j| ≤ e + |A.reM'⁻¹ i j| * (E / |D|)) := by
  intro D e E
  obtain ⟨h0, hE⟩ := M44.inv_flt A B h b hb
  have hb0 : 0 ≤ b := (abs_nonneg _).trans (hb 0 0)
  obtain ⟨C, hC, hCe, -⟩ := hE i j
  have hf := hB i j
  rw [hC] at hf
  have hU : (0 : ℝ) ≤ 3 + 6 * b := by positivity
  have h1 : |(B i j).toReal - A.reM'.adjugate i j / D| ≤ e := by
    rw [hC]
    exact inv_entry_mul (d := 5) hD hf (A.adj_le i j) hU (hCe (isFin_of_mul hf).1)
  refine ⟨?_, h1, fun hlt => ?_⟩
  · by_contra hc
    rw [(nearly_zero_flt _).2 ⟨hD, not_le.1 hc⟩] at h0
    cases h0
  · obtain ⟨k1, k2⟩ := inv_true (C102_det_M44 A b hb hD) hlt h1
    refine ⟨k1, ?_⟩
    have hi : A.reM'⁻¹ i j = A.reM'.adjugate i j / (Matrix.of fun i j => (A i j).toReal).det := by
      rw [Matrix.inv_def, Matrix.smul_apply, smul_eq_mul, Ring.inverse_eq_inv', mul_comm, div_eq_mul_inv]
      rfl
    rw [hi]
    exact k2

set_option maxRecDepth 20000 in
/-- Every entry of the computed inverse is the adjugate entry divided by the computed determinant up to
the stated error, and the entry of the true inverse up to that and the relative error of the determinant. -/
theorem C113_M55 {f : Fmt} [Libm f] (A B : Mat 5 (Flt f)) (h : M55.inverse A = .ok (some B)) (b : ℝ)
    (hb : ∀ i j, |(A i j).toReal| ≤ b) (hD : (M55.det A).IsFin) (hB : ∀ i j, (B i j).IsFin) (i j : Fin 5) :
    let D := (M55.det A).toReal
    let e := (((1 + f.u) ^ 28 - 1) * A.minorPer j i + (1 + f.u) ^ 28 * (f.eta * (24 * (1 + b + b ^ 2)))) / |D| +
      f.eta * (1 + (1 + f.u) ^ 27 * (A.minorPer j i + f.eta * (24 * (1 + b + b ^ 2))))
    let E := ((1 + f.u) ^ 123 - 1) * (Matrix.of fun i j => |(A i j).toReal|).permanent +
      (1 + f.u) ^ 123 * (f.eta * (120 * (1 + b + b ^ 2 + b ^ 3)))
    (2 : ℝ) ^ (1 - (f.p : ℤ)) ≤ |D| ∧ |(B i j).toReal - A.reM'.adjugate i j / D| ≤ e ∧
    (E < |D| → A.reM'.det ≠ 0 ∧ |(B i j).toReal - A.reM'⁻¹ i j| ≤ e + |A.reM'⁻¹ i j| * (E / |D|)) := by
  intro D e E
  obtain ⟨h0, hE⟩ := M55.inv_flt A B h b hb
  have hb0 : 0 ≤ b := (abs_nonneg _).trans (hb 0 0)
  obtain ⟨C, hC, hCe, -⟩ := hE i j
  have hf := hB i j
  rw [hC] at hf
  have hU : (0 : ℝ) ≤ 24 * (1 + b + b ^ 2) := by positivity
  have h1 : |(B i j).toReal - A.reM'.adjugate i j / D| ≤ e := by
    rw [hC]
    exact inv_entry_div (d := 26) hD hf (A.adj_le i j) hU (hCe (isFin_of_div_left hf))
  refine ⟨?_, h1, fun hlt => ?_⟩
  · by_contra hc
    rw [(nearly_zero_flt _).2 ⟨hD, not_le.1 hc⟩] at h0
    cases h0
  · obtain ⟨k1, k2⟩ := inv_true (C102_det_M55 A b hb hD) hlt h1
    refine ⟨k1, ?_⟩
    have hi : A.reM'⁻¹ i j = A.reM'.adjugate i j / (Matrix.of fun i j => (A i j).toReal).det := by
      rw [Matrix.inv_def, Matrix.smul_apply, smul_eq_mul, Ring.inverse_eq_inv', mul_comm, div_eq_mul_inv]
      rfl
    rw [hi]
    exact k2

set_option maxRecDepth 20000 in
/-- Every entry of the computed inverse is the adjugate entry divided by the computed determinant up to
the stated error, and the entry of the true inverse up to that and the relative error of the determinant. -/
theorem C113_M66 {f : Fmt} [Libm f] (A B : Mat 6 (Flt f)) (h : M66.inverse A = .ok (some B)) (b : ℝ)
    (hb : ∀ i j, |(A i j).toReal| ≤ b) (hD : (M66.det A).IsFin) (hB : ∀ i j, (B i j).IsFin) (i j : Fin 6) :
    let D := (M66.det A).toReal
    let e := (((1 + f.u) ^ 125 - 1) * A.minorPer j i + (1 + f.u) ^ 125 * (f.eta * (120 * (1 + b + b ^ 2 + b ^ 3)))) / |D| +
      f.eta * (1 + (1 + f.u) ^ 124 * (A.minorPer j i + f.eta * (120 * (1 + b + b ^ 2 + b ^ 3))))
    let E := ((1 + f.u) ^ 724 - 1) * (Matrix.of fun i j => |(A i j).toReal|).permanent +
      (1 + f.u) ^ 724 * (f.eta * (720 * (1 + b + b ^ 2 + b ^ 3 + b ^ 4)))
    (2 : ℝ) ^ (1 - (f.p : ℤ)) ≤ |D| ∧ |(B i j).toReal - A.reM'.adjugate i j / D| ≤ e ∧
    (E < |D| → A.reM'.det ≠ 0 ∧ |(B i j).toReal - A.reM'⁻¹ i j| ≤ e + |A.reM'⁻¹ i j| * (E / |D|)) := by
  intro D e E
  obtain ⟨h0, hE⟩ := M66.inv_flt A B h b hb
  have hb0 : 0 ≤ b := (abs_nonneg _).trans (hb 0 0)
  obtain ⟨C, hC, hCe, -⟩ := hE i j
  have hf := hB i j
  rw [hC] at hf
  have hU : (0 : ℝ) ≤ 120 * (1 + b + b ^ 2 + b ^ 3) := by positivity
  have h1 : |(B i j).toReal - A.reM'.adjugate i j / D| ≤ e := by
    rw [hC]
    exact inv_entry_mul (d := 123) hD hf (A.adj_le i j) hU (hCe (isFin_of_mul hf).1)
  refine ⟨?_, h1, fun hlt => ?_⟩
  · by_contra hc
    rw [(nearly_zero_flt _).2 ⟨hD, not_le.1 hc⟩] at h0
    cases h0
  · obtain ⟨k1, k2⟩ := inv_true (C102_det_M66 A b hb hD) hlt h1
    refine ⟨k1, ?_⟩
    have hi : A.reM'⁻¹ i j = A.reM'.adjugate i j / (Matrix.of fun i j => (A i j).toReal).det := by
      rw [Matrix.inv_def, Matrix.smul_apply, smul_eq_mul, Ring.inverse_eq_inv', mul_comm, div_eq_mul_inv]
      rfl
    rw [hi]
    exact k2

/-- The computed inverse of a matrix with finite entries of magnitude at most `K` and finite determinant has
finite entries, as long as the stated bound is below the overflow threshold. -/
theorem C113_finite_M22 {f : Fmt} [Libm f] (A B : Mat 2 (Flt f)) (h : M22.inverse A = .ok (some B)) (K : ℝ)
    (hK : 1 ≤ K) (hA : ∀ i j, (A i j).FinLe K) (hD : (M22.det A).IsFin)
    (hov : (1 + f.u) ^ 1 * (2 * K ^ 1 * 2 ^ f.p) < (2 : ℝ) ^ (f.emax + 1)) (i j : Fin 2) :
    (B i j).IsFin := by
  obtain ⟨h0, hE⟩ := M22.inv_flt A B h K fun i j => (hA i j).2
  obtain ⟨C, hC, hCe, hCf⟩ := hE i j
  rw [hC]
  have hu := f.u_pos
  have hp4 : (4 : ℝ) ≤ 2 ^ f.p := by
    calc (4 : ℝ) = 2 ^ 2 := by norm_num
      _ ≤ 2 ^ f.p := pow_le_pow_right₀ (by norm_num) f.hp
  have hKn : (1 : ℝ) ≤ K ^ 1 := one_le_pow₀ hK
  have hg : (1 : ℝ) ≤ (1 + f.u) ^ 0 := one_le_pow₀ (by linarith)
  rw [pow_succ (1 + f.u) 0] at hov
  have hf : C.IsFin := by
    refine hCf K hK hA (lt_of_le_of_lt ?_ hov)
    have h1 : (0 : ℝ) ≤ (1 + f.u) ^ 0 * K ^ 1 := by positivity
    have h2 : (1 + f.u) ^ 0 * K ^ 1 * 4 ≤ (1 + f.u) ^ 0 * K ^ 1 * 2 ^ f.p := mul_le_mul_of_nonneg_left hp4 h1
    have h3 : 0 ≤ f.u * ((1 + f.u) ^ 0 * K ^ 1 * 2 ^ f.p) := by positivity
    linarith
  have hP : A.minorPer j i ≤ 1 * K ^ 1 :=
    (minorPer_le _ K fun r c => (hA _ _).2).trans_eq (by norm_num [Nat.factorial])
  have hX : |C.toReal| ≤ (1 + f.u) ^ 0 * (2 * K ^ 1) := by
    refine (cof_le (d := 0) (A.adj_le i j) (hCe hf)).trans (mul_le_mul_of_nonneg_left ?_ (by linarith))
    have hU : f.eta * (0) ≤ 1 * K ^ 1 := by
      have he := f.eta_pos
      have hU1 : 0 ≤ 16 * (1 * K ^ 1) := by
        linarith
      have := f.eta_le
      calc f.eta * (0) ≤ f.eta * (16 * (1 * K ^ 1)) := mul_le_mul_of_nonneg_left hU1 he.le
        _ ≤ 1 / 16 * (16 * (1 * K ^ 1)) := mul_le_mul_of_nonneg_right this (by positivity)
        _ = 1 * K ^ 1 := by ring
    linarith
  have hlow : (2 : ℝ) ^ (1 - (f.p : ℤ)) ≤ |(M22.det A).toReal| := by
    by_contra hc
    rw [(nearly_zero_flt _).2 ⟨hD, not_le.1 hc⟩] at h0
    cases h0
  refine inv_fin_mul hD hlow hf hX (lt_of_le_of_lt (le_of_eq ?_) hov)
  generalize (1 + f.u) ^ 0 = g
  ring

/-- The computed inverse of a matrix with finite entries of magnitude at most `K` and finite determinant has
finite entries, as long as the stated bound is below the overflow threshold. -/
theorem C113_finite_M33 {f : Fmt} [Libm f] (A B : Mat 3 (Flt f)) (h : M33.inverse A = .ok (some B)) (K : ℝ)
    (hK : 1 ≤ K) (hA : ∀ i j, (A i j).FinLe K) (hD : (M33.det A).IsFin)
    (hov : (1 + f.u) ^ 3 * (4 * K ^ 2 * 2 ^ f.p) < (2 : ℝ) ^ (f.emax + 1)) (i j : Fin 3) :
    (B i j).IsFin := by
  obtain ⟨h0, hE⟩ := M33.inv_flt A B h K fun i j => (hA i j).2
  obtain ⟨C, hC, hCe, hCf⟩ := hE i j
  rw [hC]
  have hu := f.u_pos
  have hp4 : (4 : ℝ) ≤ 2 ^ f.p := by
    calc (4 : ℝ) = 2 ^ 2 := by norm_num
      _ ≤ 2 ^ f.p := pow_le_pow_right₀ (by norm_num) f.hp
  have hKn : (1 : ℝ) ≤ K ^ 2 := one_le_pow₀ hK
  have hg : (1 : ℝ) ≤ (1 + f.u) ^ 2 := one_le_pow₀ (by linarith)
  rw [pow_succ (1 + f.u) 2] at hov
  have hf : C.IsFin := by
    refine hCf K hK hA (lt_of_le_of_lt ?_ hov)
    have h1 : (0 : ℝ) ≤ (1 + f.u) ^ 2 * K ^ 2 := by positivity
    have h2 : (1 + f.u) ^ 2 * K ^ 2 * 4 ≤ (1 + f.u) ^ 2 * K ^ 2 * 2 ^ f.p := mul_le_mul_of_nonneg_left hp4 h1
    have h3 : 0 ≤ f.u * ((1 + f.u) ^ 2 * K ^ 2 * 2 ^ f.p) := by positivity
    linarith
  have hP : A.minorPer j i ≤ 2 * K ^ 2 :=
    (minorPer_le _ K fun r c => (hA _ _).2).trans_eq (by norm_num [Nat.factorial])
  have hX : |C.toReal| ≤ (1 + f.u) ^ 2 * (4 * K ^ 2) := by
    refine (cof_le (d := 2) (A.adj_le i j) (hCe hf)).trans (mul_le_mul_of_nonneg_left ?_ (by linarith))
    have hU : f.eta * (2) ≤ 2 * K ^ 2 := by
      have he := f.eta_pos
      have hU1 : 2 ≤ 16 * (2 * K ^ 2) := by
        linarith
      have := f.eta_le
      calc f.eta * (2) ≤ f.eta * (16 * (2 * K ^ 2)) := mul_le_mul_of_nonneg_left hU1 he.le
        _ ≤ 1 / 16 * (16 * (2 * K ^ 2)) := mul_le_mul_of_nonneg_right this (by positivity)
        _ = 2 * K ^ 2 := by ring
    linarith
  have hlow : (2 : ℝ) ^ (1 - (f.p : ℤ)) ≤ |(M33.det A).toReal| := by
    by_contra hc
    rw [(nearly_zero_flt _).2 ⟨hD, not_le.1 hc⟩] at h0
    cases h0
  refine inv_fin_mul hD hlow hf hX (lt_of_le_of_lt (le_of_eq ?_) hov)
  generalize (1 + f.u) ^ 2 = g
  ring

/-- The computed inverse of a matrix with finite entries of magnitude at most `K` and finite determinant has
finite entries, as long as the stated bound is below the overflow threshold. -/
theorem C113_finite_M44 {f : Fmt} [Libm f] (A B : Mat 4 (Flt f)) (h : M44.inverse A = .ok (some B)) (K : ℝ)
    (hK : 1 ≤ K) (hA : ∀ i j, (A i j).FinLe K) (hD : (M44.det A).IsFin)
    (hov : (1 + f.u) ^ 6 * (12 * K ^ 3 * 2 ^ f.p) < (2 : ℝ) ^ (f.emax + 1)) (i j : Fin 4) :
    (B i j).IsFin := by
  obtain ⟨h0, hE⟩ := M44.inv_flt A B h K fun i j => (hA i j).2
  obtain ⟨C, hC, hCe, hCf⟩ := hE i j
  rw [hC]
  have hu := f.u_pos
  have hp4 : (4 : ℝ) ≤ 2 ^ f.p := by
    calc (4 : ℝ) = 2 ^ 2 := by norm_num
      _ ≤ 2 ^ f.p := pow_le_pow_right₀ (by norm_num) f.hp
  have hKn : (1 : ℝ) ≤ K ^ 3 := one_le_pow₀ hK
  have hg : (1 : ℝ) ≤ (1 + f.u) ^ 5 := one_le_pow₀ (by linarith)
  rw [pow_succ (1 + f.u) 5] at hov
  have hf : C.IsFin := by
    refine hCf K hK hA (lt_of_le_of_lt ?_ hov)
    have h1 : (0 : ℝ) ≤ (1 + f.u) ^ 5 * K ^ 3 := by positivity
    have h2 : (1 + f.u) ^ 5 * K ^ 3 * 4 ≤ (1 + f.u) ^ 5 * K ^ 3 * 2 ^ f.p := mul_le_mul_of_nonneg_left hp4 h1
    have h3 : 0 ≤ f.u * ((1 + f.u) ^ 5 * K ^ 3 * 2 ^ f.p) := by positivity
    linarith
  have hP : A.minorPer j i ≤ 6 * K ^ 3 :=
    (minorPer_le _ K fun r c => (hA _ _).2).trans_eq (by norm_num [Nat.factorial])
  have hX : |C.toReal| ≤ (1 + f.u) ^ 5 * (12 * K ^ 3) := by
    refine (cof_le (d := 5) (A.adj_le i j) (hCe hf)).trans (mul_le_mul_of_nonneg_left ?_ (by linarith))
    have hU : f.eta * (3 + 6 * K) ≤ 6 * K ^ 3 := by
      have he := f.eta_pos
      have hU1 : 3 + 6 * K ≤ 16 * (6 * K ^ 3) := by
        have k1 := pow_le_pow_right₀ hK (show 1 ≤ 3 by norm_num)
        linarith
      have := f.eta_le
      calc f.eta * (3 + 6 * K) ≤ f.eta * (16 * (6 * K ^ 3)) := mul_le_mul_of_nonneg_left hU1 he.le
        _ ≤ 1 / 16 * (16 * (6 * K ^ 3)) := mul_le_mul_of_nonneg_right this (by positivity)
        _ = 6 * K ^ 3 := by ring
    linarith
  have hlow : (2 : ℝ) ^ (1 - (f.p : ℤ)) ≤ |(M44.det A).toReal| := by
    by_contra hc
    rw [(nearly_zero_flt _).2 ⟨hD, not_le.1 hc⟩] at h0
    cases h0
  refine inv_fin_mul hD hlow hf hX (lt_of_le_of_lt (le_of_eq ?_) hov)
  generalize (1 + f.u) ^ 5 = g
  ring

set_option maxRecDepth 20000 in
/-- The computed inverse of a matrix with finite entries of magnitude at most `K` and finite determinant has
finite entries, as long as the stated bound is below the overflow threshold. -/
theorem C113_finite_M55 {f : Fmt} [Libm f] (A B : Mat 5 (Flt f)) (h : M55.inverse A = .ok (some B)) (K : ℝ)
    (hK : 1 ≤ K) (hA : ∀ i j, (A i j).FinLe K) (hD : (M55.det A).IsFin)
    (hov : (1 + f.u) ^ 27 * (48 * K ^ 4 * 2 ^ f.p) < (2 : ℝ) ^ (f.emax + 1)) (i j : Fin 5) :
    (B i j).IsFin := by
  obtain ⟨h0, hE⟩ := M55.inv_flt A B h K fun i j => (hA i j).2
  obtain ⟨C, hC, hCe, hCf⟩ := hE i j
  rw [hC]
  have hu := f.u_pos
  have hp4 : (4 : ℝ) ≤ 2 ^ f.p := by
    calc (4 : ℝ) = 2 ^ 2 := by norm_num
      _ ≤ 2 ^ f.p := pow_le_pow_right₀ (by norm_num) f.hp
  have hKn : (1 : ℝ) ≤ K ^ 4 := one_le_pow₀ hK
  have hg : (1 : ℝ) ≤ (1 + f.u) ^ 26 := one_le_pow₀ (by linarith)
  rw [pow_succ (1 + f.u) 26] at hov
  have hf : C.IsFin := by
    refine hCf K hK hA (lt_of_le_of_lt ?_ hov)
    have h1 : (0 : ℝ) ≤ (1 + f.u) ^ 26 * K ^ 4 := by positivity
    have h2 : (1 + f.u) ^ 26 * K ^ 4 * 4 ≤ (1 + f.u) ^ 26 * K ^ 4 * 2 ^ f.p := mul_le_mul_of_nonneg_left hp4 h1
    have h3 : 0 ≤ f.u * ((1 + f.u) ^ 26 * K ^ 4 * 2 ^ f.p) := by positivity
    linarith
  have hP : A.minorPer j i ≤ 24 * K ^ 4 :=
    (minorPer_le _ K fun r c => (hA _ _).2).trans_eq (by norm_num [Nat.factorial])
  have hX : |C.toReal| ≤ (1 + f.u) ^ 26 * (48 * K ^ 4) := by
    refine (cof_le (d := 26) (A.adj_le i j) (hCe hf)).trans (mul_le_mul_of_nonneg_left ?_ (by linarith))
    have hU : f.eta * (24 * (1 + K + K ^ 2)) ≤ 24 * K ^ 4 := by
      have he := f.eta_pos
      have hU1 : 24 * (1 + K + K ^ 2) ≤ 16 * (24 * K ^ 4) := by
        have k1 := pow_le_pow_right₀ hK (show 1 ≤ 4 by norm_num)
        have k2 := pow_le_pow_right₀ hK (show 2 ≤ 4 by norm_num)
        linarith
      have := f.eta_le
      calc f.eta * (24 * (1 + K + K ^ 2)) ≤ f.eta * (16 * (24 * K ^ 4)) := mul_le_mul_of_nonneg_left hU1 he.le
        _ ≤ 1 / 16 * (16 * (24 * K ^ 4)) := mul_le_mul_of_nonneg_right this (by positivity)
        _ = 24 * K ^ 4 := by ring
    linarith
  have hlow : (2 : ℝ) ^ (1 - (f.p : ℤ)) ≤ |(M55.det A).toReal| := by
    by_contra hc
    rw [(nearly_zero_flt _).2 ⟨hD, not_le.1 hc⟩] at h0
    cases h0
  refine inv_fin_div hD hlow hf hX (lt_of_le_of_lt (le_of_eq ?_) hov)
  generalize (1 + f.u) ^ 26 = g
  ring

set_option maxRecDepth 20000 in
/-- The computed inverse of a matrix with finite entries of magnitude at most `K` and finite determinant has
finite entries, as long as the stated bound is below the overflow threshold. -/
theorem C113_finite_M66 {f : Fmt} [Libm f] (A B : Mat 6 (Flt f)) (h : M66.inverse A = .ok (some B)) (K : ℝ)
    (hK : 1 ≤ K) (hA : ∀ i j, (A i j).FinLe K) (hD : (M66.det A).IsFin)
    (hov : (1 + f.u) ^ 124 * (240 * K ^ 5 * 2 ^ f.p) < (2 : ℝ) ^ (f.emax + 1)) (i j : Fin 6) :
    (B i j).IsFin := by
  obtain ⟨h0, hE⟩ := M66.inv_flt A B h K fun i j => (hA i j).2
  obtain ⟨C, hC, hCe, hCf⟩ := hE i j
  rw [hC]
  have hu := f.u_pos
  have hp4 : (4 : ℝ) ≤ 2 ^ f.p := by
    calc (4 : ℝ) = 2 ^ 2 := by norm_num
      _ ≤ 2 ^ f.p := pow_le_pow_right₀ (by norm_num) f.hp
  have hKn : (1 : ℝ) ≤ K ^ 5 := one_le_pow₀ hK
  have hg : (1 : ℝ) ≤ (1 + f.u) ^ 123 := one_le_pow₀ (by linarith)
  rw [pow_succ (1 + f.u) 123] at hov
  have hf : C.IsFin := by
    refine hCf K hK hA (lt_of_le_of_lt ?_ hov)
    have h1 : (0 : ℝ) ≤ (1 + f.u) ^ 123 * K ^ 5 := by positivity
    have h2 : (1 + f.u) ^ 123 * K ^ 5 * 4 ≤ (1 + f.u) ^ 123 * K ^ 5 * 2 ^ f.p := mul_le_mul_of_nonneg_left hp4 h1
    have h3 : 0 ≤ f.u * ((1 + f.u) ^ 123 * K ^ 5 * 2 ^ f.p) := by positivity
    linarith
  have hP : A.minorPer j i ≤ 120 * K ^ 5 :=
    (minorPer_le _ K fun r c => (hA _ _).2).trans_eq (by norm_num [Nat.factorial])
  have hX : |C.toReal| ≤ (1 + f.u) ^ 123 * (240 * K ^ 5) := by
    refine (cof_le (d := 123) (A.adj_le i j) (hCe hf)).trans (mul_le_mul_of_nonneg_left ?_ (by linarith))
    have hU : f.eta * (120 * (1 + K + K ^ 2 + K ^ 3)) ≤ 120 * K ^ 5 := by
      have he := f.eta_pos
      have hU1 : 120 * (1 + K + K ^ 2 + K ^ 3) ≤ 16 * (120 * K ^ 5) := by
        have k1 := pow_le_pow_right₀ hK (show 1 ≤ 5 by norm_num)
        have k2 := pow_le_pow_right₀ hK (show 2 ≤ 5 by norm_num)
        have k3 := pow_le_pow_right₀ hK (show 3 ≤ 5 by norm_num)
        linarith
      have := f.eta_le
      calc f.eta * (120 * (1 + K + K ^ 2 + K ^ 3)) ≤ f.eta * (16 * (120 * K ^ 5)) := mul_le_mul_of_nonneg_left hU1 he.le
        _ ≤ 1 / 16 * (16 * (120 * K ^ 5)) := mul_le_mul_of_nonneg_right this (by positivity)
        _ = 120 * K ^ 5 := by ring
    linarith
  have hlow : (2 : ℝ) ^ (1 - (f.p : ℤ)) ≤ |(M66.det A).toReal| := by
    by_contra hc
    rw [(nearly_zero_flt _).2 ⟨hD, not_le.1 hc⟩] at h0
    cases h0
  refine inv_fin_mul hD hlow hf hX (lt_of_le_of_lt (le_of_eq ?_) hov)
  generalize (1 + f.u) ^ 123 = g
  ring

noncomputable section

@[reducible] private def anyLibm (f : Fmt) : Libm f := ⟨id, id, id, id, id, id, fun a _ => a, 1, 1, 1, 1, 1⟩

/-- The identity meets the hypotheses in `f32`. -/
example : letI := anyLibm Fmt.f32
    let A : Mat 2 (Flt Fmt.f32) := ⟨fun i j => if i = j then 1 else 0⟩
    ∃ B, M22.inverse A = .ok (some B) ∧ (M22.det A).IsFin ∧ (∀ i j, (A i j).FinLe 1) ∧ (∀ i j, (B i j).IsFin) := by
  let _ := anyLibm Fmt.f32
  intro A
  have hI : ∀ i j, (A i j).IntLe 1 := by
    intro i j
    change (if i = j then 1 else 0 : Flt Fmt.f32).IntLe 1
    split
    · exact ⟨isFin_one, 1, by rw [toReal_one]; norm_num, by norm_num⟩
    · exact ⟨isFin_zero, 0, by rw [toReal_zero]; norm_num, by norm_num⟩
  have hL : ∀ i j, (A i j).FinLe 1 := fun i j => by
    obtain ⟨h1, z, h2, h3⟩ := hI i j
    exact ⟨h1, by rw [h2]; exact_mod_cast h3⟩
  have hd := (C104_integers_M22 A A ⟨fun i => A i 0⟩ ⟨fun i => A i 0⟩ 1 le_rfl hI hI (fun i => hI i 0)
    (fun i => hI i 0)).1 (by norm_num [Fmt.f32])
  have hone : (Matrix.of fun i j => (A i j).toReal) = 1 := by
    ext i j
    change (if i = j then 1 else 0 : Flt Fmt.f32).toReal = _
    rw [Matrix.one_apply]
    split
    · exact toReal_one
    · exact toReal_zero
  rw [hone, Matrix.det_one] at hd
  rcases M22.inverse_cases A with ⟨h, -⟩ | ⟨-, B, hB⟩
  · have := ((nearly_zero_flt _).1 h).2
    rw [hd.2] at this
    norm_num [Fmt.f32] at this
  · exact ⟨B, hB, hd.1, hL, C113_finite_M22 A B hB 1 le_rfl hL hd.1 (by
      have h1 : Fmt.f32.u ≤ 1 / 1000000 := by norm_num [Fmt.u, Fmt.f32]
      have h0 := Fmt.f32.u_pos
      have h2 : (1 + Fmt.f32.u) ^ 1 ≤ (1 + 1 / 1000000 : ℝ) ^ 1 := pow_le_pow_left₀ (by linarith) (by linarith) _
      refine lt_of_le_of_lt (mul_le_mul_of_nonneg_right h2 (by positivity)) ?_
      norm_num [Fmt.f32])⟩

/-- The identity meets the hypotheses in `f32`. -/
example : letI := anyLibm Fmt.f32
    let A : Mat 3 (Flt Fmt.f32) := ⟨fun i j => if i = j then 1 else 0⟩
    ∃ B, M33.inverse A = .ok (some B) ∧ (M33.det A).IsFin ∧ (∀ i j, (A i j).FinLe 1) ∧ (∀ i j, (B i j).IsFin) := by
  let _ := anyLibm Fmt.f32
  intro A
  have hI : ∀ i j, (A i j).IntLe 1 := by
    intro i j
    change (if i = j then 1 else 0 : Flt Fmt.f32).IntLe 1
    split
    · exact ⟨isFin_one, 1, by rw [toReal_one]; norm_num, by norm_num⟩
    · exact ⟨isFin_zero, 0, by rw [toReal_zero]; norm_num, by norm_num⟩
  have hL : ∀ i j, (A i j).FinLe 1 := fun i j => by
    obtain ⟨h1, z, h2, h3⟩ := hI i j
    exact ⟨h1, by rw [h2]; exact_mod_cast h3⟩
  have hd := (C104_integers_M33 A A ⟨fun i => A i 0⟩ ⟨fun i => A i 0⟩ 1 le_rfl hI hI (fun i => hI i 0)
    (fun i => hI i 0)).1 (by norm_num [Fmt.f32])
  have hone : (Matrix.of fun i j => (A i j).toReal) = 1 := by
    ext i j
    change (if i = j then 1 else 0 : Flt Fmt.f32).toReal = _
    rw [Matrix.one_apply]
    split
    · exact toReal_one
    · exact toReal_zero
  rw [hone, Matrix.det_one] at hd
  rcases M33.inverse_cases A with ⟨h, -⟩ | ⟨-, B, hB⟩
  · have := ((nearly_zero_flt _).1 h).2
    rw [hd.2] at this
    norm_num [Fmt.f32] at this
  · exact ⟨B, hB, hd.1, hL, C113_finite_M33 A B hB 1 le_rfl hL hd.1 (by
      have h1 : Fmt.f32.u ≤ 1 / 1000000 := by norm_num [Fmt.u, Fmt.f32]
      have h0 := Fmt.f32.u_pos
      have h2 : (1 + Fmt.f32.u) ^ 3 ≤ (1 + 1 / 1000000 : ℝ) ^ 3 := pow_le_pow_left₀ (by linarith) (by linarith) _
      refine lt_of_le_of_lt (mul_le_mul_of_nonneg_right h2 (by positivity)) ?_
      norm_num [Fmt.f32])⟩

/-- The identity meets the hypotheses in `f32`. -/
example : letI := anyLibm Fmt.f32
    let A : Mat 4 (Flt Fmt.f32) := ⟨fun i j => if i = j then 1 else 0⟩
    ∃ B, M44.inverse A = .ok (some B) ∧ (M44.det A).IsFin ∧ (∀ i j, (A i j).FinLe 1) ∧ (∀ i j, (B i j).IsFin) := by
  let _ := anyLibm Fmt.f32
  intro A
  have hI : ∀ i j, (A i j).IntLe 1 := by
    intro i j
    change (if i = j then 1 else 0 : Flt Fmt.f32).IntLe 1
    split
    · exact ⟨isFin_one, 1, by rw [toReal_one]; norm_num, by norm_num⟩
    · exact ⟨isFin_zero, 0, by rw [toReal_zero]; norm_num, by norm_num⟩
  have hL : ∀ i j, (A i j).FinLe 1 := fun i j => by
    obtain ⟨h1, z, h2, h3⟩ := hI i j
    exact ⟨h1, by rw [h2]; exact_mod_cast h3⟩
  have hd := (C104_integers_M44 A A ⟨fun i => A i 0⟩ ⟨fun i => A i 0⟩ 1 le_rfl hI hI (fun i => hI i 0)
    (fun i => hI i 0)).1 (by norm_num [Fmt.f32])
  have hone : (Matrix.of fun i j => (A i j).toReal) = 1 := by
    ext i j
    change (if i = j then 1 else 0 : Flt Fmt.f32).toReal = _
    rw [Matrix.one_apply]
    split
    · exact toReal_one
    · exact toReal_zero
  rw [hone, Matrix.det_one] at hd
  rcases M44.inverse_cases A with ⟨h, -⟩ | ⟨-, B, hB⟩
  · have := ((nearly_zero_flt _).1 h).2
    rw [hd.2] at this
    norm_num [Fmt.f32] at this
  · exact ⟨B, hB, hd.1, hL, C113_finite_M44 A B hB 1 le_rfl hL hd.1 (by
      have h1 : Fmt.f32.u ≤ 1 / 1000000 := by norm_num [Fmt.u, Fmt.f32]
      have h0 := Fmt.f32.u_pos
      have h2 : (1 + Fmt.f32.u) ^ 6 ≤ (1 + 1 / 1000000 : ℝ) ^ 6 := pow_le_pow_left₀ (by linarith) (by linarith) _
      refine lt_of_le_of_lt (mul_le_mul_of_nonneg_right h2 (by positivity)) ?_
      norm_num [Fmt.f32])⟩

set_option maxRecDepth 20000 in
/-- The identity meets the hypotheses in `f32`. -/
example : letI := anyLibm Fmt.f32
    let A : Mat 5 (Flt Fmt.f32) := ⟨fun i j => if i = j then 1 else 0⟩
    ∃ B, M55.inverse A = .ok (some B) ∧ (M55.det A).IsFin ∧ (∀ i j, (A i j).FinLe 1) ∧ (∀ i j, (B i j).IsFin) := by
  let _ := anyLibm Fmt.f32
  intro A
  have hI : ∀ i j, (A i j).IntLe 1 := by
    intro i j
    change (if i = j then 1 else 0 : Flt Fmt.f32).IntLe 1
    split
    · exact ⟨isFin_one, 1, by rw [toReal_one]; norm_num, by norm_num⟩
    · exact ⟨isFin_zero, 0, by rw [toReal_zero]; norm_num, by norm_num⟩
  have hL : ∀ i j, (A i j).FinLe 1 := fun i j => by
    obtain ⟨h1, z, h2, h3⟩ := hI i j
    exact ⟨h1, by rw [h2]; exact_mod_cast h3⟩
  have hd := (C104_integers_M55 A A ⟨fun i => A i 0⟩ ⟨fun i => A i 0⟩ 1 le_rfl hI hI (fun i => hI i 0)
    (fun i => hI i 0)).1 (by norm_num [Fmt.f32])
  have hone : (Matrix.of fun i j => (A i j).toReal) = 1 := by
    ext i j
    change (if i = j then 1 else 0 : Flt Fmt.f32).toReal = _
    rw [Matrix.one_apply]
    split
    · exact toReal_one
    · exact toReal_zero
  rw [hone, Matrix.det_one] at hd
  rcases M55.inverse_cases A with ⟨h, -⟩ | ⟨-, B, hB⟩
  · have := ((nearly_zero_flt _).1 h).2
    rw [hd.2] at this
    norm_num [Fmt.f32] at this
  · exact ⟨B, hB, hd.1, hL, C113_finite_M55 A B hB 1 le_rfl hL hd.1 (by
      have h1 : Fmt.f32.u ≤ 1 / 1000000 := by norm_num [Fmt.u, Fmt.f32]
      have h0 := Fmt.f32.u_pos
      have h2 : (1 + Fmt.f32.u) ^ 27 ≤ (1 + 1 / 1000000 : ℝ) ^ 27 := pow_le_pow_left₀ (by linarith) (by linarith) _
      refine lt_of_le_of_lt (mul_le_mul_of_nonneg_right h2 (by positivity)) ?_
      norm_num [Fmt.f32])⟩

set_option maxRecDepth 20000 in
/-- The identity meets the hypotheses in `f32`. -/
example : letI := anyLibm Fmt.f32
    let A : Mat 6 (Flt Fmt.f32) := ⟨fun i j => if i = j then 1 else 0⟩
    ∃ B, M66.inverse A = .ok (some B) ∧ (M66.det A).IsFin ∧ (∀ i j, (A i j).FinLe 1) ∧ (∀ i j, (B i j).IsFin) := by
  let _ := anyLibm Fmt.f32
  intro A
  have hI : ∀ i j, (A i j).IntLe 1 := by
    intro i j
    change (if i = j then 1 else 0 : Flt Fmt.f32).IntLe 1
    split
    · exact ⟨isFin_one, 1, by rw [toReal_one]; norm_num, by norm_num⟩
    · exact ⟨isFin_zero, 0, by rw [toReal_zero]; norm_num, by norm_num⟩
  have hL : ∀ i j, (A i j).FinLe 1 := fun i j => by
    obtain ⟨h1, z, h2, h3⟩ := hI i j
    exact ⟨h1, by rw [h2]; exact_mod_cast h3⟩
  have hd := (C104_integers_M66 A A ⟨fun i => A i 0⟩ ⟨fun i => A i 0⟩ 1 le_rfl hI hI (fun i => hI i 0)
    (fun i => hI i 0)).1 (by norm_num [Fmt.f32])
  have hone : (Matrix.of fun i j => (A i j).toReal) = 1 := by
    ext i j
    change (if i = j then 1 else 0 : Flt Fmt.f32).toReal = _
    rw [Matrix.one_apply]
    split
    · exact toReal_one
    · exact toReal_zero
  rw [hone, Matrix.det_one] at hd
  rcases M66.inverse_cases A with ⟨h, -⟩ | ⟨-, B, hB⟩
  · have := ((nearly_zero_flt _).1 h).2
    rw [hd.2] at this
    norm_num [Fmt.f32] at this
  · exact ⟨B, hB, hd.1, hL, C113_finite_M66 A B hB 1 le_rfl hL hd.1 (by
      have h1 : Fmt.f32.u ≤ 1 / 1000000 := by norm_num [Fmt.u, Fmt.f32]
      have h0 := Fmt.f32.u_pos
      have h2 : (1 + Fmt.f32.u) ^ 124 ≤ (1 + 1 / 1000000 : ℝ) ^ 124 := pow_le_pow_left₀ (by linarith) (by linarith) _
      refine lt_of_le_of_lt (mul_le_mul_of_nonneg_right h2 (by positivity)) ?_
      norm_num [Fmt.f32])⟩

end

end StaticMath

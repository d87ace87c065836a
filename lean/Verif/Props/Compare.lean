import Verif.Lemmas.Inverse
import Verif.Model.Rotation
import Mathlib.LinearAlgebra.Matrix.ToLinearEquiv
import Mathlib.LinearAlgebra.UnitaryGroup
import Mathlib.Tactic.LinearCombination

/-!
# C33, C35, C36, C37, C39: eigenvalues, approximate comparisons, rotation test
-/

namespace StaticMath

variable [P : RealParams]

/-! ## C33 real_eigenvals -/

omit P in
private theorem eig_iff (A : Mat 2 ℝ) (x : ℝ) :
    (∃ v : Fin 2 → ℝ, v ≠ 0 ∧ A.toM.mulVec v = x • v) ↔
      x ^ 2 - A.toM.trace * x + A.toM.det = 0 := by
  have h1 : (∃ v : Fin 2 → ℝ, v ≠ 0 ∧ A.toM.mulVec v = x • v) ↔
      ∃ v : Fin 2 → ℝ, v ≠ 0 ∧ (A.toM - x • (1 : Matrix (Fin 2) (Fin 2) ℝ)).mulVec v = 0 := by
    refine exists_congr fun v => and_congr_right fun _ => ?_
    rw [Matrix.sub_mulVec, Matrix.smul_mulVec, Matrix.one_mulVec, sub_eq_zero]
  rw [h1, Matrix.exists_mulVec_eq_zero_iff, Matrix.det_fin_two, Matrix.det_fin_two,
    Matrix.trace_fin_two]
  simp
  constructor <;> intro h <;> linear_combination h

/-- `real_eigenvals` returns `None` exactly when there is no real eigenvalue; otherwise it returns
both eigenvalues with multiplicity, the larger first. -/
theorem C33_real_eigenvals (A : Mat 2 ℝ) :
    (M22.real_eigenvals A = none ↔
      ¬∃ (x : ℝ) (v : Fin 2 → ℝ), v ≠ 0 ∧ A.toM.mulVec v = x • v) ∧
    ∀ l, M22.real_eigenvals A = some l →
      l 0 + l 1 = A.toM.trace ∧ l 0 * l 1 = A.toM.det ∧ l 1 ≤ l 0 ∧
      ∀ x : ℝ, (∃ v : Fin 2 → ℝ, v ≠ 0 ∧ A.toM.mulVec v = x • v) ↔ x = l 0 ∨ x = l 1 := by
  have ht : M22.trace A = A.toM.trace := M22.trace_toM A
  have hd : M22.det A = A.toM.det := M22.det_eq A
  simp only [eig_iff]
  unfold M22.real_eigenvals
  rw [ht, hd]
  generalize A.toM.trace = t
  generalize A.toM.det = d
  simp only [rord_lt, rfloat_lit4, rfloat_lit2, rfloat_sqrt, decide_eq_true_eq]
  by_cases h : t * t - 4 * d < 0
  · simp only [h, if_true, true_iff]
    refine ⟨fun ⟨x, hx⟩ => ?_, fun l hl => by simp at hl⟩
    nlinarith [sq_nonneg (2 * x - t)]
  · simp only [h, if_false]
    have h' : 0 ≤ t * t - 4 * d := not_lt.1 h
    have hs := Real.sq_sqrt h'
    have hs0 := Real.sqrt_nonneg (t * t - 4 * d)
    generalize √(t * t - 4 * d) = s at hs hs0
    refine ⟨⟨fun hh => by simp at hh, fun hh => absurd (⟨(t + s) / 2, ?_⟩ : ∃ x : ℝ, x ^ 2 - t * x + d = 0) hh⟩,
      fun l hl => ?_⟩
    · linear_combination hs / 4
    · obtain rfl := Option.some.inj hl
      change (t + s) / 2 + (t - s) / 2 = t ∧ (t + s) / 2 * ((t - s) / 2) = d ∧
        (t - s) / 2 ≤ (t + s) / 2 ∧
        ∀ x : ℝ, x ^ 2 - t * x + d = 0 ↔ x = (t + s) / 2 ∨ x = (t - s) / 2
      refine ⟨by ring, by linear_combination -hs / 4, by linarith, fun x => ?_⟩
      have : x ^ 2 - t * x + d = (x - (t + s) / 2) * (x - (t - s) / 2) := by
        linear_combination hs / 4
      rw [this, mul_eq_zero, sub_eq_zero, sub_eq_zero]

/-- a matrix with eigenvalues, and one (a quarter turn) without -/
example : M22.real_eigenvals (⟨![![2, 1], ![1, 2]]⟩ : Mat 2 ℝ) ≠ none := by
  rw [Ne, (C33_real_eigenvals _).1, not_not]
  refine ⟨3, ![1, 1], by simp, ?_⟩
  ext i; fin_cases i <;> simp [Mat.toM] <;> norm_num
example : M22.real_eigenvals (⟨![![0, -1], ![1, 0]]⟩ : Mat 2 ℝ) = none := by
  rw [(C33_real_eigenvals _).1]
  rintro ⟨x, hx⟩
  rw [eig_iff, Matrix.det_fin_two, Matrix.trace_fin_two] at hx
  simp [Mat.toM] at hx
  nlinarith [sq_nonneg x]

/-! ## C35 nearly_equal over the reals -/

theorem C35_nearly_equal (a b eps : ℝ) :
    nearly_equal a b eps = true ↔
      a = b ∨ ((a = 0 ∨ b = 0) ∧ |a - b| < eps) ∨
      (a ≠ 0 ∧ b ≠ 0 ∧ |a - b| < eps * min (|a| + |b|) P.maxVal) := by
  have hM : 0 < P.maxVal := lt_of_lt_of_le (by norm_num) P.maxVal_ge
  have hdead : ¬(|a| + |b| < -P.maxVal) := by
    have := abs_nonneg a; have := abs_nonneg b; linarith
  unfold nearly_equal
  simp only [rord_beq, rord_lt, rabs_abs, rfloat_min, rfloat_min_value, rfloat_max_value, hdead,
    decide_false, Bool.or_false, Bool.or_eq_true, decide_eq_true_eq]
  by_cases hab : a = b
  · simp [hab]
  · by_cases h0 : a = 0 ∨ b = 0
    · simp only [hab, if_false, h0, if_true, decide_eq_true_eq]
      constructor
      · intro h; exact Or.inr (Or.inl ⟨trivial, h⟩)
      · rintro (h | ⟨-, h⟩ | ⟨ha, hb, -⟩)
        · exact absurd h (by simp)
        · exact h
        · rcases h0 with h0 | h0 <;> contradiction
    · simp only [hab, if_false, h0, decide_eq_true_eq, false_or, false_and]
      have ha : a ≠ 0 := fun h => h0 (Or.inl h)
      have hb : b ≠ 0 := fun h => h0 (Or.inr h)
      have hpos : 0 < min (|a| + |b|) P.maxVal := by
        refine lt_min ?_ hM
        have := abs_pos.2 ha; have := abs_nonneg b; linarith
      rw [div_lt_iff₀ hpos]
      simp [ha, hb]

/-- Away from zero and the largest float, the comparison is relative: it does not change when both
numbers are scaled. -/
theorem C35_scaling (a b c eps : ℝ) (ha : a ≠ 0) (hb : b ≠ 0) (hc : c ≠ 0)
    (h1 : |a| + |b| ≤ P.maxVal) (h2 : |c * a| + |c * b| ≤ P.maxVal) :
    nearly_equal (c * a) (c * b) eps = nearly_equal a b eps := by
  rw [Bool.eq_iff_iff, C35_nearly_equal, C35_nearly_equal, min_eq_left h1, min_eq_left h2,
    ← mul_sub, abs_mul, abs_mul, abs_mul]
  have hcp := abs_pos.2 hc
  have e : |c| * |a - b| < eps * (|c| * |a| + |c| * |b|) ↔ |a - b| < eps * (|a| + |b|) := by
    rw [show eps * (|c| * |a| + |c| * |b|) = |c| * (eps * (|a| + |b|)) by ring,
      mul_lt_mul_iff_right₀ hcp]
  simp only [mul_right_inj' hc, mul_eq_zero, hc, ha, hb, e, false_or, or_self, false_and,
    ne_eq, not_false_eq_true, true_and]

example : (1 : ℝ) ≠ 0 ∧ (2 : ℝ) ≠ 0 ∧ |(1 : ℝ)| + |(2 : ℝ)| ≤ P.maxVal ∧
    |(10 : ℝ) * 1| + |(10 : ℝ) * 2| ≤ P.maxVal := by
  have := P.maxVal_ge
  refine ⟨by norm_num, by norm_num, ?_, ?_⟩ <;> norm_num at this ⊢ <;> linarith

/-! ## C36 tiny values

False: the guard compares with `T::min_value()`, the most negative float, so it never holds and the
comparison of tiny values stays relative. -/

/-- C36 is false: below every threshold `m > 0` there are two numbers whose difference is less than
the tolerance but which are not nearly equal. -/
theorem C36_tiny_false (m : ℝ) (hm : 0 < m) (eps : ℝ) (he : 0 < eps) (he' : eps ≤ 1 / 4) :
    ∃ a b : ℝ, 0 < a ∧ 0 < b ∧ |a| + |b| < m ∧ |a - b| < eps ∧ nearly_equal a b eps = false := by
  have hM : (1 : ℝ) < P.maxVal := lt_of_lt_of_le (by norm_num) P.maxVal_ge
  obtain ⟨x, hx, hx1, hx2, hx3⟩ : ∃ x : ℝ, 0 < x ∧ 3 * x < m ∧ x < eps ∧ 3 * x < 1 := by
    refine ⟨min (m / 4) (eps / 4), by positivity, ?_, ?_, ?_⟩
    · have := min_le_left (m / 4) (eps / 4); linarith
    · have := min_le_right (m / 4) (eps / 4); linarith
    · have := min_le_right (m / 4) (eps / 4); linarith
  have e1 : |x| = x := abs_of_pos hx
  have e2 : |2 * x| = 2 * x := abs_of_pos (by linarith)
  have e3 : |x - 2 * x| = x := by rw [abs_of_neg (by linarith)]; ring
  refine ⟨x, 2 * x, hx, by linarith, by rw [e1, e2]; linarith, by rw [e3]; exact hx2, ?_⟩
  rw [Bool.eq_false_iff, Ne, C35_nearly_equal, e1, e2, e3,
    min_eq_left (show x + 2 * x ≤ P.maxVal by linarith)]
  rintro (h | ⟨h | h, -⟩ | ⟨-, -, h⟩)
  · linarith
  · linarith
  · linarith
  · nlinarith

/-- What holds: the comparison is absolute when one argument is zero, and for arguments with
`|a|+|b| ≤ 1` being nearly equal implies `|a-b| < eps`. Missing: the converse for two non-zero tiny
values (false there). -/
theorem C36_tiny_partial (a b eps : ℝ) (he : 0 < eps) :
    (a = 0 ∨ b = 0 → (nearly_equal a b eps = true ↔ |a - b| < eps)) ∧
    (|a| + |b| ≤ 1 → nearly_equal a b eps = true → |a - b| < eps) := by
  rw [C35_nearly_equal]
  constructor
  · intro h0
    constructor
    · rintro (h | ⟨-, h⟩ | ⟨ha, hb, -⟩)
      · rw [h, sub_self, abs_zero]; exact he
      · exact h
      · rcases h0 with h0 | h0 <;> contradiction
    · exact fun h => Or.inr (Or.inl ⟨h0, h⟩)
  · rintro h1 (h | ⟨-, h⟩ | ⟨-, -, h⟩)
    · rw [h, sub_self, abs_zero]; exact he
    · exact h
    · have := min_le_left (|a| + |b|) P.maxVal
      nlinarith

example : nearly_equal (0 : ℝ) (1 / 10 ^ 7) (1 / 10 ^ 6) = true := by
  rw [(C36_tiny_partial _ _ _ (by norm_num)).1 (Or.inl rfl)]
  rw [zero_sub, abs_neg, abs_of_pos] <;> norm_num

/-! ## C37 nearly_zero (exact part; floats with NaN and infinities: see the IEEE model) -/

theorem C37_nearly_zero (a : ℝ) : nearly_zero a = true ↔ |a| < P.eps := nearly_zero_iff a

/-! ## C39 is_rotation

The first half holds, the second is false: the test only looks at the determinant. -/

private theorem det_one_nearly (d eps : ℝ) (h : d = 1) : nearly_equal d 1 eps = true :=
  (C35_nearly_equal d 1 eps).2 (Or.inl h)

/-- Every rotation matrix is accepted. -/
theorem C39_is_rotation_partial (r : Mat 3 ℝ) (h : r.toM ∈ Matrix.specialOrthogonalGroup (Fin 3) ℝ) :
    is_rotation r = true := by
  have hd : r.toM.det = 1 := (Matrix.mem_specialOrthogonalGroup_iff.1 h).2
  have e1 : M33.det r = 1 := by rw [← hd]; exact M33.det_eq r
  have e2 : M33.det (M33.mul r r) = 1 := by
    rw [M33.det_eq, ← Mat.toM, M33.toM_mul, Matrix.det_mul, hd, one_mul]
  rw [is_rotation, Bool.and_eq_true]
  exact ⟨det_one_nearly _ _ e1, det_one_nearly _ _ e2⟩

example : (M33.one : Mat 3 ℝ).toM ∈ Matrix.specialOrthogonalGroup (Fin 3) ℝ := by
  rw [M33.toM_one]; exact one_mem _

/-- Every homogeneous matrix with a rotation block is accepted by `is_rotation_h`. -/
theorem C39_is_rotation_h_partial (r : Mat 4 ℝ) (R : Matrix (Fin 3) (Fin 3) ℝ)
    (h : R ∈ Matrix.specialOrthogonalGroup (Fin 3) ℝ)
    (hb : ∀ i j : Fin 3, r (Fin.castSucc i) (Fin.castSucc j) = R i j)
    (hl : ∀ j : Fin 3, r 3 (Fin.castSucc j) = 0) (h1 : r 3 3 = 1) :
    is_rotation_h r = true := by
  have hR : R.det = 1 := (Matrix.mem_specialOrthogonalGroup_iff.1 h).2
  have hd : r.toM.det = 1 := by
    rw [Matrix.det_succ_row _ 3, Fin.sum_univ_four]
    have e0 : r.toM 3 0 = 0 := hl 0
    have e1 : r.toM 3 1 = 0 := hl 1
    have e2 : r.toM 3 2 = 0 := hl 2
    have e3 : r.toM 3 3 = 1 := h1
    have es : r.toM.submatrix (Fin.succAbove 3) (Fin.succAbove 3) = R := by
      ext i j
      rw [← hb i j]
      fin_cases i <;> fin_cases j <;> rfl
    rw [e0, e1, e2, e3, es, hR]
    norm_num [show ((3 : Fin 4) : ℕ) = 3 from rfl]
  have e1 : M44.det r = 1 := by rw [← hd]; exact M44.det_eq r
  have e2 : M44.det (M44.mul r r) = 1 := by
    rw [M44.det_eq, ← Mat.toM, M44.toM_mul, Matrix.det_mul, hd, one_mul]
  rw [is_rotation_h, Bool.and_eq_true]
  exact ⟨det_one_nearly _ _ e1, det_one_nearly _ _ e2⟩

/-- Only matrices with a determinant close to one are accepted. -/
theorem C39_is_rotation_det_partial (r : Mat 3 ℝ) (h : is_rotation r = true) :
    |r.toM.det - 1| < 3 * P.eps := by
  have he := P.eps_pos
  have he' := P.eps_le
  rw [is_rotation, Bool.and_eq_true, C35_nearly_equal] at h
  have e1 : M33.det r = r.toM.det := M33.det_eq r
  rw [e1] at h
  simp only [rfloat_epsilon] at h
  obtain ⟨h | ⟨h0 | h0, h⟩ | ⟨-, -, h⟩, -⟩ := h
  · rw [h, sub_self, abs_zero]; linarith
  · rw [h0] at h
    norm_num at h he'
    linarith
  · norm_num at h0
  · have h1 := min_le_left (|r.toM.det| + |(1 : ℝ)|) P.maxVal
    have h2 : |r.toM.det| ≤ 1 + |r.toM.det - 1| := by
      have := abs_add_le (r.toM.det - 1) 1
      rw [sub_add_cancel, abs_one] at this; linarith
    rw [abs_one] at h h1
    have h3 : P.eps * min (|r.toM.det| + 1) P.maxVal ≤ P.eps * (2 + |r.toM.det - 1|) :=
      mul_le_mul_of_nonneg_left (by linarith) he.le
    norm_num at he'
    nlinarith [abs_nonneg (r.toM.det - 1)]

/-- C39 is false: a shear (far from orthogonal, for every bound `k`) is accepted. -/
theorem C39_is_rotation_false (k : ℝ) :
    ∃ r : Mat 3 ℝ, is_rotation r = true ∧ (r.toM.transpose * r.toM) 0 1 = k ∧
      (k ≠ 0 → r.toM ∉ Matrix.orthogonalGroup (Fin 3) ℝ) := by
  have h01 : ((⟨![![1, k, 0], ![0, 1, 0], ![0, 0, 1]]⟩ : Mat 3 ℝ).toM.transpose *
      (⟨![![1, k, 0], ![0, 1, 0], ![0, 0, 1]]⟩ : Mat 3 ℝ).toM) 0 1 = k := by
    rw [Matrix.mul_apply, Fin.sum_univ_three]
    simp [Mat.toM]
  refine ⟨⟨![![1, k, 0], ![0, 1, 0], ![0, 0, 1]]⟩, ?_, h01, fun hk hmem => ?_⟩
  · have hd : (⟨![![1, k, 0], ![0, 1, 0], ![0, 0, 1]]⟩ : Mat 3 ℝ).toM.det = 1 := by
      rw [Matrix.det_fin_three]; simp [Mat.toM]
    rw [is_rotation, Bool.and_eq_true]
    refine ⟨det_one_nearly _ _ ((M33.det_eq _).trans hd), det_one_nearly _ _ ?_⟩
    rw [M33.det_eq, ← Mat.toM, M33.toM_mul, Matrix.det_mul, hd, one_mul]
  · rw [Matrix.mem_orthogonalGroup_iff'] at hmem
    rw [hmem] at h01
    simp at h01
    exact hk h01.symm

end StaticMath

import Verif.Lemmas.Lu
import Verif.Lemmas.Det

/-!
# LU factorisation: C28–C31

Exact arithmetic.  `lowerUnit`/`upper` unpack the two triangles of the packed result, and
`pivotPerm n indx.at n` replays the recorded row swaps.
-/

namespace StaticMath

section
variable [P : RealParams]

/-- Used for the examples: `2 * identity` with the first two rows exchanged (a swap is forced). -/
def swapped (n : ℕ) : Mat (n + 2) ℝ :=
  ⟨fun i j => if Equiv.swap (0 : Fin (n + 2)) 1 i = j then 2 else 0⟩

omit P in
theorem swapped_det (n : ℕ) : (swapped n).toM.det ≠ 0 := by
  have h : (swapped n).toM = ((2 : ℝ) • (1 : Matrix (Fin (n + 2)) (Fin (n + 2)) ℝ)).submatrix
      (Equiv.swap 0 1) id := by
    refine Matrix.ext fun i j => ?_
    simp only [swapped, Mat.toM, Matrix.of_apply, Matrix.submatrix_apply, Matrix.smul_apply,
      Matrix.one_apply, id, smul_eq_mul, mul_ite, mul_one, mul_zero]
  rw [h, Matrix.det_permute, Matrix.det_smul, Matrix.det_one,
    Equiv.Perm.sign_swap (by simp)]
  simp

/-- Used for the examples and witnesses: only the entry `(1,0)` is 1. -/
def onlyBelow (n : ℕ) : Mat (n + 2) ℝ := ⟨fun i j => if i = 1 ∧ j = 0 then 1 else 0⟩

/-- Used for the examples and witnesses: only the entry `(0,1)` is 1. -/
def onlyAbove (n : ℕ) : Mat (n + 2) ℝ := ⟨fun i j => if i = 0 ∧ j = 1 then 1 else 0⟩

omit P in
theorem onlyAbove_det (n : ℕ) : (onlyAbove n).toM.det = 0 := by
  refine Matrix.det_eq_zero_of_row_eq_zero 1 fun j => ?_
  simp [onlyAbove, Mat.toM]

/-! ## M22 -/

omit P in
private theorem fin_M22 (d : ℝ) (lu : Mat 2 ℝ) (indx : Vec 2 ℕ) : (do
        let det := d * (← lu.get 0 0) * (← lu.get 1 1)
        pure (lu, det, indx)) =
      (.ok (lu, d * ∏ i, lu i i, indx) : MayPanic (Mat 2 ℝ × ℝ × Vec 2 ℕ)) := by
  refine Eq.trans (b := Except.ok (lu, d * lu 0 0 * lu 1 1, indx)) rfl ?_
  congr 3
  rw [Fin.prod_univ_def]
  simp [List.finRange_succ, mul_assoc]

private theorem main_M22 (A : Mat 2 ℝ) (h : ∃ c, A 0 c ≠ 0) :
    ∃ M det indx, M22.lu A = .ok (M, det, indx) ∧
      (∀ j : Fin 2, j.val ≤ indx j ∧ indx j < 2) ∧ det ≠ 0 ∧
      ∃ δ : Fin 2 → ℝ, (∀ i, δ i = 0 ∨ δ i = P.tiny) ∧ (A.toM.det ≠ 0 ↔ δ = 0) ∧
        M.lowerUnit * M.upper =
          A.toM.submatrix (pivotPerm 2 indx.at 2) id + Matrix.diagonal δ ∧
        det = ((Equiv.Perm.sign (pivotPerm 2 indx.at 2) : ℤ) : ℝ) *
          (A.toM.submatrix (pivotPerm 2 indx.at 2) id + Matrix.diagonal δ).det := by
  rw [M22.lu_gen]
  exact lu_main (by norm_num) A V2.zero V2.zero _ fin_M22 h

private theorem panics_M22 (A : Mat 2 ℝ) (h : ∀ c, A 0 c = 0) :
    M22.lu A = .error (Panic.explicit "the matrix should be non zero") := by
  rw [M22.lu_gen, luScale_panic A V2.zero (by norm_num) h]
  rfl

/-- C28: for an invertible matrix `lu` succeeds, `L*U = P*A`, and the determinant is exact. -/
theorem C28_lu_M22 (A : Mat 2 ℝ) (h : A.toM.det ≠ 0) :
    ∃ M det indx, M22.lu A = .ok (M, det, indx) ∧
      M.lowerUnit * M.upper = A.toM.submatrix (pivotPerm 2 indx.at 2) id ∧
      det = A.toM.det ∧ det = M22.det A := by
  obtain ⟨M, det, indx, hl, -, -, δ, -, h0, hLU, hdet⟩ := main_M22 A (first_row_ne_zero (by norm_num) A h)
  rw [h0.1 h] at hLU hdet
  rw [lu_det_eq] at hdet
  refine ⟨M, det, indx, hl, ?_, hdet, hdet.trans (M22.det_eq A).symm⟩
  rw [hLU, show Matrix.diagonal (0 : Fin 2 → ℝ) = 0 from Matrix.diagonal_zero, add_zero]

example : ∃ M det indx, M22.lu (swapped 0) = .ok (M, det, indx) ∧ det ≠ 0 := by
  obtain ⟨M, det, indx, h1, -, h2, -⟩ := C28_lu_M22 (swapped 0) (swapped_det 0)
  exact ⟨M, det, indx, h1, by rw [h2]; exact swapped_det 0⟩

/-- C29 is false: a non-zero matrix whose first row is zero makes `lu` panic. -/
theorem C29_lu_M22_false : ∃ A : Mat 2 ℝ, A ≠ M22.zero ∧
    M22.lu A = .error (Panic.explicit "the matrix should be non zero") := by
  refine ⟨onlyBelow 0, fun h => ?_, panics_M22 _ fun c => ?_⟩
  · have h1 := congrArg (fun X : Mat 2 ℝ => X 1 0) h
    exact one_ne_zero ((show onlyBelow 0 1 0 = 1 by simp [onlyBelow]).symm.trans h1)
  · simp [onlyBelow]

/-- C29, what holds: `lu` panics exactly when the *first row* is zero (and then with that
message), so in particular for the zero matrix.  Missing: no panic on other matrices. -/
theorem C29_lu_M22_partial (A : Mat 2 ℝ) :
    ((∀ c, A 0 c = 0) → M22.lu A = .error (Panic.explicit "the matrix should be non zero")) ∧
    ((∃ c, A 0 c ≠ 0) → ∃ r, M22.lu A = .ok r) ∧
    M22.lu (T := ℝ) M22.zero = .error (Panic.explicit "the matrix should be non zero") := by
  refine ⟨panics_M22 A, fun h => ?_, panics_M22 _ fun c => ?_⟩
  · obtain ⟨M, det, indx, hl, -⟩ := main_M22 A h
    exact ⟨_, hl⟩
  · fin_cases c <;> rfl

example : ∃ c, onlyAbove 0 0 c ≠ 0 := ⟨1, by simp [onlyAbove]⟩

/-- C30 is false, and for every matrix: the determinant reported by `lu` is never 0, so it is wrong
for each singular matrix on which `lu` returns (and there are such). -/
theorem C30_lu_M22_false :
    (∀ (A M : Mat 2 ℝ) det indx, M22.lu A = .ok (M, det, indx) → det ≠ 0) ∧
    ∃ A M : Mat 2 ℝ, ∃ det indx, A.toM.det = 0 ∧ M22.lu A = .ok (M, det, indx) ∧ det ≠ 0 := by
  constructor
  · intro A M det indx hl
    by_cases h : ∃ c, A 0 c ≠ 0
    · obtain ⟨M', det', indx', hl', -, hd, -⟩ := main_M22 A h
      rw [hl'] at hl
      injection hl with hl
      injection hl with _ hl
      injection hl with hl _
      rwa [← hl]
    · push Not at h
      rw [panics_M22 A h] at hl
      cases hl
  · obtain ⟨M, det, indx, hl, -, hd, -⟩ := main_M22 (onlyAbove 0) ⟨1, by simp [onlyAbove]⟩
    exact ⟨_, M, det, indx, onlyAbove_det 0, hl, hd⟩

/-- C30, what holds: on every matrix on which it returns, `lu` factors `P*A` with the tiny literal
`1e-40` added to some diagonal entries, and reports the determinant of that perturbed matrix;
something is added exactly when the matrix is singular.  Missing: the reported determinant is not 0. -/
theorem C30_lu_M22_partial (A M : Mat 2 ℝ) (det : ℝ) (indx : Vec 2 ℕ)
    (hl : M22.lu A = .ok (M, det, indx)) :
    ∃ δ : Fin 2 → ℝ, (∀ i, δ i = 0 ∨ δ i = P.tiny) ∧ (A.toM.det = 0 ↔ ∃ i, δ i = P.tiny) ∧
      M.lowerUnit * M.upper = A.toM.submatrix (pivotPerm 2 indx.at 2) id + Matrix.diagonal δ ∧
      det = ((Equiv.Perm.sign (pivotPerm 2 indx.at 2) : ℤ) : ℝ) *
        (A.toM.submatrix (pivotPerm 2 indx.at 2) id + Matrix.diagonal δ).det := by
  by_cases h : ∃ c, A 0 c ≠ 0
  · obtain ⟨M', det', indx', hl', -, -, δ, h1, h2, h3, h4⟩ := main_M22 A h
    rw [hl'] at hl
    injection hl with hl
    injection hl with e1 hl
    injection hl with e2 e3
    subst e1 e2 e3
    exact ⟨δ, h1, singular_iff h1 h2, h3, h4⟩
  · push Not at h
    rw [panics_M22 A h] at hl
    cases hl

example : ∃ M det indx, M22.lu (onlyAbove 0) = .ok (M, det, indx) := by
  obtain ⟨M, det, indx, hl, -⟩ := main_M22 (onlyAbove 0) ⟨1, by simp [onlyAbove]⟩
  exact ⟨M, det, indx, hl⟩

/-- C31: the pivot record stays in range, so replaying it permutes the rows. -/
theorem C31_pivots_M22 (A M : Mat 2 ℝ) (det : ℝ) (indx : Vec 2 ℕ)
    (hl : M22.lu A = .ok (M, det, indx)) : ∀ k : Fin 2, k.val ≤ indx k ∧ indx k < 2 := by
  by_cases h : ∃ c, A 0 c ≠ 0
  · obtain ⟨M', det', indx', hl', h1, -⟩ := main_M22 A h
    rw [hl'] at hl
    injection hl with hl
    injection hl with _ hl
    injection hl with _ e3
    subst e3
    exact h1
  · push Not at h
    rw [panics_M22 A h] at hl
    cases hl

example : ∃ M det indx, M22.lu (swapped 0) = .ok (M, det, indx) ∧ indx 0 < 2 := by
  obtain ⟨M, det, indx, h1, -⟩ := C28_lu_M22 (swapped 0) (swapped_det 0)
  exact ⟨M, det, indx, h1, (C31_pivots_M22 _ _ _ _ h1 0).2⟩

/-! ## M33 -/

omit P in
private theorem fin_M33 (d : ℝ) (lu : Mat 3 ℝ) (indx : Vec 3 ℕ) : (do
        let det := d * (← lu.get 0 0) * (← lu.get 1 1) * (← lu.get 2 2)
        pure (lu, det, indx)) =
      (.ok (lu, d * ∏ i, lu i i, indx) : MayPanic (Mat 3 ℝ × ℝ × Vec 3 ℕ)) := by
  refine Eq.trans (b := Except.ok (lu, d * lu 0 0 * lu 1 1 * lu 2 2, indx)) rfl ?_
  congr 3
  rw [Fin.prod_univ_def]
  simp [List.finRange_succ, mul_assoc]

private theorem main_M33 (A : Mat 3 ℝ) (h : ∃ c, A 0 c ≠ 0) :
    ∃ M det indx, M33.lu A = .ok (M, det, indx) ∧
      (∀ j : Fin 3, j.val ≤ indx j ∧ indx j < 3) ∧ det ≠ 0 ∧
      ∃ δ : Fin 3 → ℝ, (∀ i, δ i = 0 ∨ δ i = P.tiny) ∧ (A.toM.det ≠ 0 ↔ δ = 0) ∧
        M.lowerUnit * M.upper =
          A.toM.submatrix (pivotPerm 3 indx.at 3) id + Matrix.diagonal δ ∧
        det = ((Equiv.Perm.sign (pivotPerm 3 indx.at 3) : ℤ) : ℝ) *
          (A.toM.submatrix (pivotPerm 3 indx.at 3) id + Matrix.diagonal δ).det := by
  rw [M33.lu_gen]
  exact lu_main (by norm_num) A V3.zero V3.zero _ fin_M33 h

private theorem panics_M33 (A : Mat 3 ℝ) (h : ∀ c, A 0 c = 0) :
    M33.lu A = .error (Panic.explicit "the matrix should be non zero") := by
  rw [M33.lu_gen, luScale_panic A V3.zero (by norm_num) h]
  rfl

/-- C28: for an invertible matrix `lu` succeeds, `L*U = P*A`, and the determinant is exact. -/
theorem C28_lu_M33 (A : Mat 3 ℝ) (h : A.toM.det ≠ 0) :
    ∃ M det indx, M33.lu A = .ok (M, det, indx) ∧
      M.lowerUnit * M.upper = A.toM.submatrix (pivotPerm 3 indx.at 3) id ∧
      det = A.toM.det ∧ det = M33.det A := by
  obtain ⟨M, det, indx, hl, -, -, δ, -, h0, hLU, hdet⟩ := main_M33 A (first_row_ne_zero (by norm_num) A h)
  rw [h0.1 h] at hLU hdet
  rw [lu_det_eq] at hdet
  refine ⟨M, det, indx, hl, ?_, hdet, hdet.trans (M33.det_eq A).symm⟩
  rw [hLU, show Matrix.diagonal (0 : Fin 3 → ℝ) = 0 from Matrix.diagonal_zero, add_zero]

example : ∃ M det indx, M33.lu (swapped 1) = .ok (M, det, indx) ∧ det ≠ 0 := by
  obtain ⟨M, det, indx, h1, -, h2, -⟩ := C28_lu_M33 (swapped 1) (swapped_det 1)
  exact ⟨M, det, indx, h1, by rw [h2]; exact swapped_det 1⟩

/-- C29 is false: a non-zero matrix whose first row is zero makes `lu` panic. -/
theorem C29_lu_M33_false : ∃ A : Mat 3 ℝ, A ≠ M33.zero ∧
    M33.lu A = .error (Panic.explicit "the matrix should be non zero") := by
  refine ⟨onlyBelow 1, fun h => ?_, panics_M33 _ fun c => ?_⟩
  · have h1 := congrArg (fun X : Mat 3 ℝ => X 1 0) h
    exact one_ne_zero ((show onlyBelow 1 1 0 = 1 by simp [onlyBelow]).symm.trans h1)
  · simp [onlyBelow]

/-- C29, what holds: `lu` panics exactly when the *first row* is zero (and then with that
message), so in particular for the zero matrix.  Missing: no panic on other matrices. -/
theorem C29_lu_M33_partial (A : Mat 3 ℝ) :
    ((∀ c, A 0 c = 0) → M33.lu A = .error (Panic.explicit "the matrix should be non zero")) ∧
    ((∃ c, A 0 c ≠ 0) → ∃ r, M33.lu A = .ok r) ∧
    M33.lu (T := ℝ) M33.zero = .error (Panic.explicit "the matrix should be non zero") := by
  refine ⟨panics_M33 A, fun h => ?_, panics_M33 _ fun c => ?_⟩
  · obtain ⟨M, det, indx, hl, -⟩ := main_M33 A h
    exact ⟨_, hl⟩
  · fin_cases c <;> rfl

example : ∃ c, onlyAbove 1 0 c ≠ 0 := ⟨1, by simp [onlyAbove]⟩

/-- C30 is false, and for every matrix: the determinant reported by `lu` is never 0, so it is wrong
for each singular matrix on which `lu` returns (and there are such). -/
theorem C30_lu_M33_false :
    (∀ (A M : Mat 3 ℝ) det indx, M33.lu A = .ok (M, det, indx) → det ≠ 0) ∧
    ∃ A M : Mat 3 ℝ, ∃ det indx, A.toM.det = 0 ∧ M33.lu A = .ok (M, det, indx) ∧ det ≠ 0 := by
  constructor
  · intro A M det indx hl
    by_cases h : ∃ c, A 0 c ≠ 0
    · obtain ⟨M', det', indx', hl', -, hd, -⟩ := main_M33 A h
      rw [hl'] at hl
      injection hl with hl
      injection hl with _ hl
      injection hl with hl _
      rwa [← hl]
    · push Not at h
      rw [panics_M33 A h] at hl
      cases hl
  · obtain ⟨M, det, indx, hl, -, hd, -⟩ := main_M33 (onlyAbove 1) ⟨1, by simp [onlyAbove]⟩
    exact ⟨_, M, det, indx, onlyAbove_det 1, hl, hd⟩

/-- C30, what holds: on every matrix on which it returns, `lu` factors `P*A` with the tiny literal
`1e-40` added to some diagonal entries, and reports the determinant of that perturbed matrix;
something is added exactly when the matrix is singular.  Missing: the reported determinant is not 0. -/
theorem C30_lu_M33_partial (A M : Mat 3 ℝ) (det : ℝ) (indx : Vec 3 ℕ)
    (hl : M33.lu A = .ok (M, det, indx)) :
    ∃ δ : Fin 3 → ℝ, (∀ i, δ i = 0 ∨ δ i = P.tiny) ∧ (A.toM.det = 0 ↔ ∃ i, δ i = P.tiny) ∧
      M.lowerUnit * M.upper = A.toM.submatrix (pivotPerm 3 indx.at 3) id + Matrix.diagonal δ ∧
      det = ((Equiv.Perm.sign (pivotPerm 3 indx.at 3) : ℤ) : ℝ) *
        (A.toM.submatrix (pivotPerm 3 indx.at 3) id + Matrix.diagonal δ).det := by
  by_cases h : ∃ c, A 0 c ≠ 0
  · obtain ⟨M', det', indx', hl', -, -, δ, h1, h2, h3, h4⟩ := main_M33 A h
    rw [hl'] at hl
    injection hl with hl
    injection hl with e1 hl
    injection hl with e2 e3
    subst e1 e2 e3
    exact ⟨δ, h1, singular_iff h1 h2, h3, h4⟩
  · push Not at h
    rw [panics_M33 A h] at hl
    cases hl

example : ∃ M det indx, M33.lu (onlyAbove 1) = .ok (M, det, indx) := by
  obtain ⟨M, det, indx, hl, -⟩ := main_M33 (onlyAbove 1) ⟨1, by simp [onlyAbove]⟩
  exact ⟨M, det, indx, hl⟩

/-- C31: the pivot record stays in range, so replaying it permutes the rows. -/
theorem C31_pivots_M33 (A M : Mat 3 ℝ) (det : ℝ) (indx : Vec 3 ℕ)
    (hl : M33.lu A = .ok (M, det, indx)) : ∀ k : Fin 3, k.val ≤ indx k ∧ indx k < 3 := by
  by_cases h : ∃ c, A 0 c ≠ 0
  · obtain ⟨M', det', indx', hl', h1, -⟩ := main_M33 A h
    rw [hl'] at hl
    injection hl with hl
    injection hl with _ hl
    injection hl with _ e3
    subst e3
    exact h1
  · push Not at h
    rw [panics_M33 A h] at hl
    cases hl

example : ∃ M det indx, M33.lu (swapped 1) = .ok (M, det, indx) ∧ indx 0 < 3 := by
  obtain ⟨M, det, indx, h1, -⟩ := C28_lu_M33 (swapped 1) (swapped_det 1)
  exact ⟨M, det, indx, h1, (C31_pivots_M33 _ _ _ _ h1 0).2⟩

/-! ## M44 -/

omit P in
private theorem fin_M44 (d : ℝ) (lu : Mat 4 ℝ) (indx : Vec 4 ℕ) : (do
        let det := d * (← lu.get 0 0) * (← lu.get 1 1) * (← lu.get 2 2) * (← lu.get 3 3)
        pure (lu, det, indx)) =
      (.ok (lu, d * ∏ i, lu i i, indx) : MayPanic (Mat 4 ℝ × ℝ × Vec 4 ℕ)) := by
  refine Eq.trans (b := Except.ok (lu, d * lu 0 0 * lu 1 1 * lu 2 2 * lu 3 3, indx)) rfl ?_
  congr 3
  rw [Fin.prod_univ_def]
  simp [List.finRange_succ, mul_assoc]

private theorem main_M44 (A : Mat 4 ℝ) (h : ∃ c, A 0 c ≠ 0) :
    ∃ M det indx, M44.lu A = .ok (M, det, indx) ∧
      (∀ j : Fin 4, j.val ≤ indx j ∧ indx j < 4) ∧ det ≠ 0 ∧
      ∃ δ : Fin 4 → ℝ, (∀ i, δ i = 0 ∨ δ i = P.tiny) ∧ (A.toM.det ≠ 0 ↔ δ = 0) ∧
        M.lowerUnit * M.upper =
          A.toM.submatrix (pivotPerm 4 indx.at 4) id + Matrix.diagonal δ ∧
        det = ((Equiv.Perm.sign (pivotPerm 4 indx.at 4) : ℤ) : ℝ) *
          (A.toM.submatrix (pivotPerm 4 indx.at 4) id + Matrix.diagonal δ).det := by
  rw [M44.lu_gen]
  exact lu_main (by norm_num) A V4.zero V4.zero _ fin_M44 h

private theorem panics_M44 (A : Mat 4 ℝ) (h : ∀ c, A 0 c = 0) :
    M44.lu A = .error (Panic.explicit "the matrix should be non zero") := by
  rw [M44.lu_gen, luScale_panic A V4.zero (by norm_num) h]
  rfl

/-- C28: for an invertible matrix `lu` succeeds, `L*U = P*A`, and the determinant is exact. -/
theorem C28_lu_M44 (A : Mat 4 ℝ) (h : A.toM.det ≠ 0) :
    ∃ M det indx, M44.lu A = .ok (M, det, indx) ∧
      M.lowerUnit * M.upper = A.toM.submatrix (pivotPerm 4 indx.at 4) id ∧
      det = A.toM.det ∧ det = M44.det A := by
  obtain ⟨M, det, indx, hl, -, -, δ, -, h0, hLU, hdet⟩ := main_M44 A (first_row_ne_zero (by norm_num) A h)
  rw [h0.1 h] at hLU hdet
  rw [lu_det_eq] at hdet
  refine ⟨M, det, indx, hl, ?_, hdet, hdet.trans (M44.det_eq A).symm⟩
  rw [hLU, show Matrix.diagonal (0 : Fin 4 → ℝ) = 0 from Matrix.diagonal_zero, add_zero]

example : ∃ M det indx, M44.lu (swapped 2) = .ok (M, det, indx) ∧ det ≠ 0 := by
  obtain ⟨M, det, indx, h1, -, h2, -⟩ := C28_lu_M44 (swapped 2) (swapped_det 2)
  exact ⟨M, det, indx, h1, by rw [h2]; exact swapped_det 2⟩

/-- C29 is false: a non-zero matrix whose first row is zero makes `lu` panic. -/
theorem C29_lu_M44_false : ∃ A : Mat 4 ℝ, A ≠ M44.zero ∧
    M44.lu A = .error (Panic.explicit "the matrix should be non zero") := by
  refine ⟨onlyBelow 2, fun h => ?_, panics_M44 _ fun c => ?_⟩
  · have h1 := congrArg (fun X : Mat 4 ℝ => X 1 0) h
    exact one_ne_zero ((show onlyBelow 2 1 0 = 1 by simp [onlyBelow]).symm.trans h1)
  · simp [onlyBelow]

/-- C29, what holds: `lu` panics exactly when the *first row* is zero (and then with that
message), so in particular for the zero matrix.  Missing: no panic on other matrices. -/
theorem C29_lu_M44_partial (A : Mat 4 ℝ) :
    ((∀ c, A 0 c = 0) → M44.lu A = .error (Panic.explicit "the matrix should be non zero")) ∧
    ((∃ c, A 0 c ≠ 0) → ∃ r, M44.lu A = .ok r) ∧
    M44.lu (T := ℝ) M44.zero = .error (Panic.explicit "the matrix should be non zero") := by
  refine ⟨panics_M44 A, fun h => ?_, panics_M44 _ fun c => ?_⟩
  · obtain ⟨M, det, indx, hl, -⟩ := main_M44 A h
    exact ⟨_, hl⟩
  · fin_cases c <;> rfl

example : ∃ c, onlyAbove 2 0 c ≠ 0 := ⟨1, by simp [onlyAbove]⟩

/-- C30 is false, and for every matrix: the determinant reported by `lu` is never 0, so it is wrong
for each singular matrix on which `lu` returns (and there are such). -/
theorem C30_lu_M44_false :
    (∀ (A M : Mat 4 ℝ) det indx, M44.lu A = .ok (M, det, indx) → det ≠ 0) ∧
    ∃ A M : Mat 4 ℝ, ∃ det indx, A.toM.det = 0 ∧ M44.lu A = .ok (M, det, indx) ∧ det ≠ 0 := by
  constructor
  · intro A M det indx hl
    by_cases h : ∃ c, A 0 c ≠ 0
    · obtain ⟨M', det', indx', hl', -, hd, -⟩ := main_M44 A h
      rw [hl'] at hl
      injection hl with hl
      injection hl with _ hl
      injection hl with hl _
      rwa [← hl]
    · push Not at h
      rw [panics_M44 A h] at hl
      cases hl
  · obtain ⟨M, det, indx, hl, -, hd, -⟩ := main_M44 (onlyAbove 2) ⟨1, by simp [onlyAbove]⟩
    exact ⟨_, M, det, indx, onlyAbove_det 2, hl, hd⟩

/-- C30, what holds: on every matrix on which it returns, `lu` factors `P*A` with the tiny literal
`1e-40` added to some diagonal entries, and reports the determinant of that perturbed matrix;
something is added exactly when the matrix is singular.  Missing: the reported determinant is not 0. -/
theorem C30_lu_M44_partial (A M : Mat 4 ℝ) (det : ℝ) (indx : Vec 4 ℕ)
    (hl : M44.lu A = .ok (M, det, indx)) :
    ∃ δ : Fin 4 → ℝ, (∀ i, δ i = 0 ∨ δ i = P.tiny) ∧ (A.toM.det = 0 ↔ ∃ i, δ i = P.tiny) ∧
      M.lowerUnit * M.upper = A.toM.submatrix (pivotPerm 4 indx.at 4) id + Matrix.diagonal δ ∧
      det = ((Equiv.Perm.sign (pivotPerm 4 indx.at 4) : ℤ) : ℝ) *
        (A.toM.submatrix (pivotPerm 4 indx.at 4) id + Matrix.diagonal δ).det := by
  by_cases h : ∃ c, A 0 c ≠ 0
  · obtain ⟨M', det', indx', hl', -, -, δ, h1, h2, h3, h4⟩ := main_M44 A h
    rw [hl'] at hl
    injection hl with hl
    injection hl with e1 hl
    injection hl with e2 e3
    subst e1 e2 e3
    exact ⟨δ, h1, singular_iff h1 h2, h3, h4⟩
  · push Not at h
    rw [panics_M44 A h] at hl
    cases hl

example : ∃ M det indx, M44.lu (onlyAbove 2) = .ok (M, det, indx) := by
  obtain ⟨M, det, indx, hl, -⟩ := main_M44 (onlyAbove 2) ⟨1, by simp [onlyAbove]⟩
  exact ⟨M, det, indx, hl⟩

/-- C31: the pivot record stays in range, so replaying it permutes the rows. -/
theorem C31_pivots_M44 (A M : Mat 4 ℝ) (det : ℝ) (indx : Vec 4 ℕ)
    (hl : M44.lu A = .ok (M, det, indx)) : ∀ k : Fin 4, k.val ≤ indx k ∧ indx k < 4 := by
  by_cases h : ∃ c, A 0 c ≠ 0
  · obtain ⟨M', det', indx', hl', h1, -⟩ := main_M44 A h
    rw [hl'] at hl
    injection hl with hl
    injection hl with _ hl
    injection hl with _ e3
    subst e3
    exact h1
  · push Not at h
    rw [panics_M44 A h] at hl
    cases hl

example : ∃ M det indx, M44.lu (swapped 2) = .ok (M, det, indx) ∧ indx 0 < 4 := by
  obtain ⟨M, det, indx, h1, -⟩ := C28_lu_M44 (swapped 2) (swapped_det 2)
  exact ⟨M, det, indx, h1, (C31_pivots_M44 _ _ _ _ h1 0).2⟩

/-! ## M55 -/

omit P in
private theorem fin_M55 (d : ℝ) (lu : Mat 5 ℝ) (indx : Vec 5 ℕ) : (do
        let det := d * (← lu.get 0 0) * (← lu.get 1 1) * (← lu.get 2 2) * (← lu.get 3 3) * (← lu.get 4 4)
        pure (lu, det, indx)) =
      (.ok (lu, d * ∏ i, lu i i, indx) : MayPanic (Mat 5 ℝ × ℝ × Vec 5 ℕ)) := by
  refine Eq.trans (b := Except.ok (lu, d * lu 0 0 * lu 1 1 * lu 2 2 * lu 3 3 * lu 4 4, indx)) rfl ?_
  congr 3
  rw [Fin.prod_univ_def]
  simp [List.finRange_succ, mul_assoc]

private theorem main_M55 (A : Mat 5 ℝ) (h : ∃ c, A 0 c ≠ 0) :
    ∃ M det indx, M55.lu A = .ok (M, det, indx) ∧
      (∀ j : Fin 5, j.val ≤ indx j ∧ indx j < 5) ∧ det ≠ 0 ∧
      ∃ δ : Fin 5 → ℝ, (∀ i, δ i = 0 ∨ δ i = P.tiny) ∧ (A.toM.det ≠ 0 ↔ δ = 0) ∧
        M.lowerUnit * M.upper =
          A.toM.submatrix (pivotPerm 5 indx.at 5) id + Matrix.diagonal δ ∧
        det = ((Equiv.Perm.sign (pivotPerm 5 indx.at 5) : ℤ) : ℝ) *
          (A.toM.submatrix (pivotPerm 5 indx.at 5) id + Matrix.diagonal δ).det := by
  rw [M55.lu_gen]
  exact lu_main (by norm_num) A V5.zero V5.zero _ fin_M55 h

private theorem panics_M55 (A : Mat 5 ℝ) (h : ∀ c, A 0 c = 0) :
    M55.lu A = .error (Panic.explicit "the matrix should be non zero") := by
  rw [M55.lu_gen, luScale_panic A V5.zero (by norm_num) h]
  rfl

/-- C28: for an invertible matrix `lu` succeeds, `L*U = P*A`, and the determinant is exact. -/
theorem C28_lu_M55 (A : Mat 5 ℝ) (h : A.toM.det ≠ 0) :
    ∃ M det indx, M55.lu A = .ok (M, det, indx) ∧
      M.lowerUnit * M.upper = A.toM.submatrix (pivotPerm 5 indx.at 5) id ∧
      det = A.toM.det ∧ det = M55.det A := by
  obtain ⟨M, det, indx, hl, -, -, δ, -, h0, hLU, hdet⟩ := main_M55 A (first_row_ne_zero (by norm_num) A h)
  rw [h0.1 h] at hLU hdet
  rw [lu_det_eq] at hdet
  refine ⟨M, det, indx, hl, ?_, hdet, hdet.trans (M55.det_eq A).symm⟩
  rw [hLU, show Matrix.diagonal (0 : Fin 5 → ℝ) = 0 from Matrix.diagonal_zero, add_zero]

example : ∃ M det indx, M55.lu (swapped 3) = .ok (M, det, indx) ∧ det ≠ 0 := by
  obtain ⟨M, det, indx, h1, -, h2, -⟩ := C28_lu_M55 (swapped 3) (swapped_det 3)
  exact ⟨M, det, indx, h1, by rw [h2]; exact swapped_det 3⟩

/-- C29 is false: a non-zero matrix whose first row is zero makes `lu` panic. -/
theorem C29_lu_M55_false : ∃ A : Mat 5 ℝ, A ≠ M55.zero ∧
    M55.lu A = .error (Panic.explicit "the matrix should be non zero") := by
  refine ⟨onlyBelow 3, fun h => ?_, panics_M55 _ fun c => ?_⟩
  · have h1 := congrArg (fun X : Mat 5 ℝ => X 1 0) h
    exact one_ne_zero ((show onlyBelow 3 1 0 = 1 by simp [onlyBelow]).symm.trans h1)
  · simp [onlyBelow]

/-- C29, what holds: `lu` panics exactly when the *first row* is zero (and then with that
message), so in particular for the zero matrix.  Missing: no panic on other matrices. -/
theorem C29_lu_M55_partial (A : Mat 5 ℝ) :
    ((∀ c, A 0 c = 0) → M55.lu A = .error (Panic.explicit "the matrix should be non zero")) ∧
    ((∃ c, A 0 c ≠ 0) → ∃ r, M55.lu A = .ok r) ∧
    M55.lu (T := ℝ) M55.zero = .error (Panic.explicit "the matrix should be non zero") := by
  refine ⟨panics_M55 A, fun h => ?_, panics_M55 _ fun c => ?_⟩
  · obtain ⟨M, det, indx, hl, -⟩ := main_M55 A h
    exact ⟨_, hl⟩
  · fin_cases c <;> rfl

example : ∃ c, onlyAbove 3 0 c ≠ 0 := ⟨1, by simp [onlyAbove]⟩

/-- C30 is false, and for every matrix: the determinant reported by `lu` is never 0, so it is wrong
for each singular matrix on which `lu` returns (and there are such). -/
theorem C30_lu_M55_false :
    (∀ (A M : Mat 5 ℝ) det indx, M55.lu A = .ok (M, det, indx) → det ≠ 0) ∧
    ∃ A M : Mat 5 ℝ, ∃ det indx, A.toM.det = 0 ∧ M55.lu A = .ok (M, det, indx) ∧ det ≠ 0 := by
  constructor
  · intro A M det indx hl
    by_cases h : ∃ c, A 0 c ≠ 0
    · obtain ⟨M', det', indx', hl', -, hd, -⟩ := main_M55 A h
      rw [hl'] at hl
      injection hl with hl
      injection hl with _ hl
      injection hl with hl _
      rwa [← hl]
    · push Not at h
      rw [panics_M55 A h] at hl
      cases hl
  · obtain ⟨M, det, indx, hl, -, hd, -⟩ := main_M55 (onlyAbove 3) ⟨1, by simp [onlyAbove]⟩
    exact ⟨_, M, det, indx, onlyAbove_det 3, hl, hd⟩

/-- C30, what holds: on every matrix on which it returns, `lu` factors `P*A` with the tiny literal
`1e-40` added to some diagonal entries, and reports the determinant of that perturbed matrix;
something is added exactly when the matrix is singular.  Missing: the reported determinant is not 0. -/
theorem C30_lu_M55_partial (A M : Mat 5 ℝ) (det : ℝ) (indx : Vec 5 ℕ)
    (hl : M55.lu A = .ok (M, det, indx)) :
    ∃ δ : Fin 5 → ℝ, (∀ i, δ i = 0 ∨ δ i = P.tiny) ∧ (A.toM.det = 0 ↔ ∃ i, δ i = P.tiny) ∧
      M.lowerUnit * M.upper = A.toM.submatrix (pivotPerm 5 indx.at 5) id + Matrix.diagonal δ ∧
      det = ((Equiv.Perm.sign (pivotPerm 5 indx.at 5) : ℤ) : ℝ) *
        (A.toM.submatrix (pivotPerm 5 indx.at 5) id + Matrix.diagonal δ).det := by
  by_cases h : ∃ c, A 0 c ≠ 0
  · obtain ⟨M', det', indx', hl', -, -, δ, h1, h2, h3, h4⟩ := main_M55 A h
    rw [hl'] at hl
    injection hl with hl
    injection hl with e1 hl
    injection hl with e2 e3
    subst e1 e2 e3
    exact ⟨δ, h1, singular_iff h1 h2, h3, h4⟩
  · push Not at h
    rw [panics_M55 A h] at hl
    cases hl

example : ∃ M det indx, M55.lu (onlyAbove 3) = .ok (M, det, indx) := by
  obtain ⟨M, det, indx, hl, -⟩ := main_M55 (onlyAbove 3) ⟨1, by simp [onlyAbove]⟩
  exact ⟨M, det, indx, hl⟩

/-- C31: the pivot record stays in range, so replaying it permutes the rows. -/
theorem C31_pivots_M55 (A M : Mat 5 ℝ) (det : ℝ) (indx : Vec 5 ℕ)
    (hl : M55.lu A = .ok (M, det, indx)) : ∀ k : Fin 5, k.val ≤ indx k ∧ indx k < 5 := by
  by_cases h : ∃ c, A 0 c ≠ 0
  · obtain ⟨M', det', indx', hl', h1, -⟩ := main_M55 A h
    rw [hl'] at hl
    injection hl with hl
    injection hl with _ hl
    injection hl with _ e3
    subst e3
    exact h1
  · push Not at h
    rw [panics_M55 A h] at hl
    cases hl

example : ∃ M det indx, M55.lu (swapped 3) = .ok (M, det, indx) ∧ indx 0 < 5 := by
  obtain ⟨M, det, indx, h1, -⟩ := C28_lu_M55 (swapped 3) (swapped_det 3)
  exact ⟨M, det, indx, h1, (C31_pivots_M55 _ _ _ _ h1 0).2⟩

/-! ## M66 -/

omit P in
private theorem fin_M66 (d : ℝ) (lu : Mat 6 ℝ) (indx : Vec 6 ℕ) : (do
        let det := d * (← lu.get 0 0) * (← lu.get 1 1) * (← lu.get 2 2) * (← lu.get 3 3) * (← lu.get 4 4) * (← lu.get 5 5)
        pure (lu, det, indx)) =
      (.ok (lu, d * ∏ i, lu i i, indx) : MayPanic (Mat 6 ℝ × ℝ × Vec 6 ℕ)) := by
  refine Eq.trans (b := Except.ok (lu, d * lu 0 0 * lu 1 1 * lu 2 2 * lu 3 3 * lu 4 4 * lu 5 5, indx)) rfl ?_
  congr 3
  rw [Fin.prod_univ_def]
  simp [List.finRange_succ, mul_assoc]

private theorem main_M66 (A : Mat 6 ℝ) (h : ∃ c, A 0 c ≠ 0) :
    ∃ M det indx, M66.lu A = .ok (M, det, indx) ∧
      (∀ j : Fin 6, j.val ≤ indx j ∧ indx j < 6) ∧ det ≠ 0 ∧
      ∃ δ : Fin 6 → ℝ, (∀ i, δ i = 0 ∨ δ i = P.tiny) ∧ (A.toM.det ≠ 0 ↔ δ = 0) ∧
        M.lowerUnit * M.upper =
          A.toM.submatrix (pivotPerm 6 indx.at 6) id + Matrix.diagonal δ ∧
        det = ((Equiv.Perm.sign (pivotPerm 6 indx.at 6) : ℤ) : ℝ) *
          (A.toM.submatrix (pivotPerm 6 indx.at 6) id + Matrix.diagonal δ).det := by
  rw [M66.lu_gen]
  exact lu_main (by norm_num) A V6.zero V6.zero _ fin_M66 h

private theorem panics_M66 (A : Mat 6 ℝ) (h : ∀ c, A 0 c = 0) :
    M66.lu A = .error (Panic.explicit "the matrix should be non zero") := by
  rw [M66.lu_gen, luScale_panic A V6.zero (by norm_num) h]
  rfl

/-- C28: for an invertible matrix `lu` succeeds, `L*U = P*A`, and the determinant is exact. -/
theorem C28_lu_M66 (A : Mat 6 ℝ) (h : A.toM.det ≠ 0) :
    ∃ M det indx, M66.lu A = .ok (M, det, indx) ∧
      M.lowerUnit * M.upper = A.toM.submatrix (pivotPerm 6 indx.at 6) id ∧
      det = A.toM.det ∧ det = M66.det A := by
  obtain ⟨M, det, indx, hl, -, -, δ, -, h0, hLU, hdet⟩ := main_M66 A (first_row_ne_zero (by norm_num) A h)
  rw [h0.1 h] at hLU hdet
  rw [lu_det_eq] at hdet
  refine ⟨M, det, indx, hl, ?_, hdet, hdet.trans (M66.det_eq A).symm⟩
  rw [hLU, show Matrix.diagonal (0 : Fin 6 → ℝ) = 0 from Matrix.diagonal_zero, add_zero]

example : ∃ M det indx, M66.lu (swapped 4) = .ok (M, det, indx) ∧ det ≠ 0 := by
  obtain ⟨M, det, indx, h1, -, h2, -⟩ := C28_lu_M66 (swapped 4) (swapped_det 4)
  exact ⟨M, det, indx, h1, by rw [h2]; exact swapped_det 4⟩

/-- C29 is false: a non-zero matrix whose first row is zero makes `lu` panic. -/
theorem C29_lu_M66_false : ∃ A : Mat 6 ℝ, A ≠ M66.zero ∧
    M66.lu A = .error (Panic.explicit "the matrix should be non zero") := by
  refine ⟨onlyBelow 4, fun h => ?_, panics_M66 _ fun c => ?_⟩
  · have h1 := congrArg (fun X : Mat 6 ℝ => X 1 0) h
    exact one_ne_zero ((show onlyBelow 4 1 0 = 1 by simp [onlyBelow]).symm.trans h1)
  · simp [onlyBelow]

/-- C29, what holds: `lu` panics exactly when the *first row* is zero (and then with that
message), so in particular for the zero matrix.  Missing: no panic on other matrices. -/
theorem C29_lu_M66_partial (A : Mat 6 ℝ) :
    ((∀ c, A 0 c = 0) → M66.lu A = .error (Panic.explicit "the matrix should be non zero")) ∧
    ((∃ c, A 0 c ≠ 0) → ∃ r, M66.lu A = .ok r) ∧
    M66.lu (T := ℝ) M66.zero = .error (Panic.explicit "the matrix should be non zero") := by
  refine ⟨panics_M66 A, fun h => ?_, panics_M66 _ fun c => ?_⟩
  · obtain ⟨M, det, indx, hl, -⟩ := main_M66 A h
    exact ⟨_, hl⟩
  · fin_cases c <;> rfl

example : ∃ c, onlyAbove 4 0 c ≠ 0 := ⟨1, by simp [onlyAbove]⟩

/-- C30 is false, and for every matrix: the determinant reported by `lu` is never 0, so it is wrong
for each singular matrix on which `lu` returns (and there are such). -/
theorem C30_lu_M66_false :
    (∀ (A M : Mat 6 ℝ) det indx, M66.lu A = .ok (M, det, indx) → det ≠ 0) ∧
    ∃ A M : Mat 6 ℝ, ∃ det indx, A.toM.det = 0 ∧ M66.lu A = .ok (M, det, indx) ∧ det ≠ 0 := by
  constructor
  · intro A M det indx hl
    by_cases h : ∃ c, A 0 c ≠ 0
    · obtain ⟨M', det', indx', hl', -, hd, -⟩ := main_M66 A h
      rw [hl'] at hl
      injection hl with hl
      injection hl with _ hl
      injection hl with hl _
      rwa [← hl]
    · push Not at h
      rw [panics_M66 A h] at hl
      cases hl
  · obtain ⟨M, det, indx, hl, -, hd, -⟩ := main_M66 (onlyAbove 4) ⟨1, by simp [onlyAbove]⟩
    exact ⟨_, M, det, indx, onlyAbove_det 4, hl, hd⟩

/-- C30, what holds: on every matrix on which it returns, `lu` factors `P*A` with the tiny literal
`1e-40` added to some diagonal entries, and reports the determinant of that perturbed matrix;
something is added exactly when the matrix is singular.  Missing: the reported determinant is not 0. -/
theorem C30_lu_M66_partial (A M : Mat 6 ℝ) (det : ℝ) (indx : Vec 6 ℕ)
    (hl : M66.lu A = .ok (M, det, indx)) :
    ∃ δ : Fin 6 → ℝ, (∀ i, δ i = 0 ∨ δ i = P.tiny) ∧ (A.toM.det = 0 ↔ ∃ i, δ i = P.tiny) ∧
      M.lowerUnit * M.upper = A.toM.submatrix (pivotPerm 6 indx.at 6) id + Matrix.diagonal δ ∧
      det = ((Equiv.Perm.sign (pivotPerm 6 indx.at 6) : ℤ) : ℝ) *
        (A.toM.submatrix (pivotPerm 6 indx.at 6) id + Matrix.diagonal δ).det := by
  by_cases h : ∃ c, A 0 c ≠ 0
  · obtain ⟨M', det', indx', hl', -, -, δ, h1, h2, h3, h4⟩ := main_M66 A h
    rw [hl'] at hl
    injection hl with hl
    injection hl with e1 hl
    injection hl with e2 e3
    subst e1 e2 e3
    exact ⟨δ, h1, singular_iff h1 h2, h3, h4⟩
  · push Not at h
    rw [panics_M66 A h] at hl
    cases hl

example : ∃ M det indx, M66.lu (onlyAbove 4) = .ok (M, det, indx) := by
  obtain ⟨M, det, indx, hl, -⟩ := main_M66 (onlyAbove 4) ⟨1, by simp [onlyAbove]⟩
  exact ⟨M, det, indx, hl⟩

/-- C31: the pivot record stays in range, so replaying it permutes the rows. -/
theorem C31_pivots_M66 (A M : Mat 6 ℝ) (det : ℝ) (indx : Vec 6 ℕ)
    (hl : M66.lu A = .ok (M, det, indx)) : ∀ k : Fin 6, k.val ≤ indx k ∧ indx k < 6 := by
  by_cases h : ∃ c, A 0 c ≠ 0
  · obtain ⟨M', det', indx', hl', h1, -⟩ := main_M66 A h
    rw [hl'] at hl
    injection hl with hl
    injection hl with _ hl
    injection hl with _ e3
    subst e3
    exact h1
  · push Not at h
    rw [panics_M66 A h] at hl
    cases hl

example : ∃ M det indx, M66.lu (swapped 4) = .ok (M, det, indx) ∧ indx 0 < 6 := by
  obtain ⟨M, det, indx, h1, -⟩ := C28_lu_M66 (swapped 4) (swapped_det 4)
  exact ⟨M, det, indx, h1, (C31_pivots_M66 _ _ _ _ h1 0).2⟩

end

end StaticMath

#!/usr/bin/env python3
"""Writes lean/Verif/Props/Lu.lean (C28-C31 for the five sizes)."""
import os
out = '''import Verif.Lemmas.Lu
import Verif.Lemmas.Det

/-!
# LU factorisation: C28–C31

Exact arithmetic.  `lowerUnit`/`upper` unpack the two triangles of the packed result, and
`pivotPerm n indx.at n` replays the recorded row swaps.
-/

namespace StaticMath

section
variable [P : RealParams]

/-- Used for the examples: `2 * identity` with the first two rows exchanged (a swap is forced). -/
def swapped (n : ℕ) : Mat (n + 2) ℝ :=
  ⟨fun i j => if Equiv.swap (0 : Fin (n + 2)) 1 i = j then 2 else 0⟩

omit P in
theorem swapped_det (n : ℕ) : (swapped n).toM.det ≠ 0 := by
  have h : (swapped n).toM = ((2 : ℝ) • (1 : Matrix (Fin (n + 2)) (Fin (n + 2)) ℝ)).submatrix
      (Equiv.swap 0 1) id := by
    refine Matrix.ext fun i j => ?_
    simp only [swapped, Mat.toM, Matrix.of_apply, Matrix.submatrix_apply, Matrix.smul_apply,
      Matrix.one_apply, id, smul_eq_mul, mul_ite, mul_one, mul_zero]
  rw [h, Matrix.det_permute, Matrix.det_smul, Matrix.det_one,
    Equiv.Perm.sign_swap (by simp)]
  simp

/-- Used for the examples and witnesses: only the entry `(1,0)` is 1. -/
def onlyBelow (n : ℕ) : Mat (n + 2) ℝ := ⟨fun i j => if i = 1 ∧ j = 0 then 1 else 0⟩

/-- Used for the examples and witnesses: only the entry `(0,1)` is 1. -/
def onlyAbove (n : ℕ) : Mat (n + 2) ℝ := ⟨fun i j => if i = 0 ∧ j = 1 then 1 else 0⟩

omit P in
theorem onlyAbove_det (n : ℕ) : (onlyAbove n).toM.det = 0 := by
  refine Matrix.det_eq_zero_of_row_eq_zero 1 fun j => ?_
  simp [onlyAbove, Mat.toM]

'''
for n in range(2, 7):
    M = f"M{n}{n}"
    V = f"V{n}"
    gets = "do\n        " + f"let det := d * " + " * ".join(f"(← lu.get {i} {i})" for i in range(n)) + "\n        pure (lu, det, indx)"
    out += f'''/-! ## {M} -/

omit P in
private theorem fin_{M} (d : ℝ) (lu : Mat {n} ℝ) (indx : Vec {n} ℕ) : ({gets}) =
      (.ok (lu, d * ∏ i, lu i i, indx) : MayPanic (Mat {n} ℝ × ℝ × Vec {n} ℕ)) := by
  refine Eq.trans (b := Except.ok (lu, {"d * " + " * ".join(f"lu {i} {i}" for i in range(n))}, indx)) rfl ?_
  congr 3
  rw [Fin.prod_univ_def]
  simp [List.finRange_succ, mul_assoc]

private theorem main_{M} (A : Mat {n} ℝ) (h : ∃ c, A 0 c ≠ 0) :
    ∃ M det indx, {M}.lu A = .ok (M, det, indx) ∧
      (∀ j : Fin {n}, j.val ≤ indx j ∧ indx j < {n}) ∧ det ≠ 0 ∧
      ∃ δ : Fin {n} → ℝ, (∀ i, δ i = 0 ∨ δ i = P.tiny) ∧ (A.toM.det ≠ 0 ↔ δ = 0) ∧
        M.lowerUnit * M.upper =
          A.toM.submatrix (pivotPerm {n} indx.at {n}) id + Matrix.diagonal δ ∧
        det = ((Equiv.Perm.sign (pivotPerm {n} indx.at {n}) : ℤ) : ℝ) *
          (A.toM.submatrix (pivotPerm {n} indx.at {n}) id + Matrix.diagonal δ).det := by
  rw [{M}.lu_gen]
  exact lu_main (by norm_num) A {V}.zero {V}.zero _ fin_{M} h

private theorem panics_{M} (A : Mat {n} ℝ) (h : ∀ c, A 0 c = 0) :
    {M}.lu A = .error (Panic.explicit "the matrix should be non zero") := by
  rw [{M}.lu_gen, luScale_panic A {V}.zero (by norm_num) h]
  rfl

/-- C28: for an invertible matrix `lu` succeeds, `L*U = P*A`, and the determinant is exact. -/
theorem C28_lu_{M} (A : Mat {n} ℝ) (h : A.toM.det ≠ 0) :
    ∃ M det indx, {M}.lu A = .ok (M, det, indx) ∧
      M.lowerUnit * M.upper = A.toM.submatrix (pivotPerm {n} indx.at {n}) id ∧
      det = A.toM.det ∧ det = {M}.det A := by
  obtain ⟨M, det, indx, hl, -, -, δ, -, h0, hLU, hdet⟩ := main_{M} A (first_row_ne_zero (by norm_num) A h)
  rw [h0.1 h] at hLU hdet
  rw [lu_det_eq] at hdet
  refine ⟨M, det, indx, hl, ?_, hdet, hdet.trans ({M}.det_eq A).symm⟩
  rw [hLU, show Matrix.diagonal (0 : Fin {n} → ℝ) = 0 from Matrix.diagonal_zero, add_zero]

example : ∃ M det indx, {M}.lu (swapped {n-2}) = .ok (M, det, indx) ∧ det ≠ 0 := by
  obtain ⟨M, det, indx, h1, -, h2, -⟩ := C28_lu_{M} (swapped {n-2}) (swapped_det {n-2})
  exact ⟨M, det, indx, h1, by rw [h2]; exact swapped_det {n-2}⟩

/-- C29 is false: a non-zero matrix whose first row is zero makes `lu` panic. -/
theorem C29_lu_{M}_false : ∃ A : Mat {n} ℝ, A ≠ {M}.zero ∧
    {M}.lu A = .error (Panic.explicit "the matrix should be non zero") := by
  refine ⟨onlyBelow {n-2}, fun h => ?_, panics_{M} _ fun c => ?_⟩
  · have h1 := congrArg (fun X : Mat {n} ℝ => X 1 0) h
    exact one_ne_zero ((show onlyBelow {n-2} 1 0 = 1 by simp [onlyBelow]).symm.trans h1)
  · simp [onlyBelow]

/-- C29, what holds: `lu` panics exactly when the *first row* is zero (and then with that
message), so in particular for the zero matrix.  Missing: no panic on other matrices. -/
theorem C29_lu_{M}_partial (A : Mat {n} ℝ) :
    ((∀ c, A 0 c = 0) → {M}.lu A = .error (Panic.explicit "the matrix should be non zero")) ∧
    ((∃ c, A 0 c ≠ 0) → ∃ r, {M}.lu A = .ok r) ∧
    {M}.lu (T := ℝ) {M}.zero = .error (Panic.explicit "the matrix should be non zero") := by
  refine ⟨panics_{M} A, fun h => ?_, panics_{M} _ fun c => ?_⟩
  · obtain ⟨M, det, indx, hl, -⟩ := main_{M} A h
    exact ⟨_, hl⟩
  · revert c
    refine Fin.forall_fin_succ_pi_aux ?_

example : ∃ c, onlyAbove {n-2} 0 c ≠ 0 := ⟨1, by simp [onlyAbove]⟩

/-- C30 is false, and for every matrix: the determinant reported by `lu` is never 0, so it is wrong
for each singular matrix on which `lu` returns (and there are such). -/
theorem C30_lu_{M}_false :
    (∀ (A M : Mat {n} ℝ) det indx, {M}.lu A = .ok (M, det, indx) → det ≠ 0) ∧
    ∃ A M : Mat {n} ℝ, ∃ det indx, A.toM.det = 0 ∧ {M}.lu A = .ok (M, det, indx) ∧ det ≠ 0 := by
  constructor
  · intro A M det indx hl
    by_cases h : ∃ c, A 0 c ≠ 0
    · obtain ⟨M', det', indx', hl', -, hd, -⟩ := main_{M} A h
      rw [hl'] at hl
      injection hl with hl
      injection hl with _ hl
      injection hl with hl _
      rwa [← hl]
    · push Not at h
      rw [panics_{M} A h] at hl
      cases hl
  · obtain ⟨M, det, indx, hl, -, hd, -⟩ := main_{M} (onlyAbove {n-2}) ⟨1, by simp [onlyAbove]⟩
    exact ⟨_, M, det, indx, onlyAbove_det {n-2}, hl, hd⟩

/-- C30, what holds: on every matrix on which it returns, `lu` factors `P*A` with the tiny literal
`1e-40` added to some diagonal entries, and reports the determinant of that perturbed matrix;
something is added exactly when the matrix is singular.  Missing: the reported determinant is not 0. -/
theorem C30_lu_{M}_partial (A M : Mat {n} ℝ) (det : ℝ) (indx : Vec {n} ℕ)
    (hl : {M}.lu A = .ok (M, det, indx)) :
    ∃ δ : Fin {n} → ℝ, (∀ i, δ i = 0 ∨ δ i = P.tiny) ∧ (A.toM.det = 0 ↔ ∃ i, δ i = P.tiny) ∧
      M.lowerUnit * M.upper = A.toM.submatrix (pivotPerm {n} indx.at {n}) id + Matrix.diagonal δ ∧
      det = ((Equiv.Perm.sign (pivotPerm {n} indx.at {n}) : ℤ) : ℝ) *
        (A.toM.submatrix (pivotPerm {n} indx.at {n}) id + Matrix.diagonal δ).det := by
  by_cases h : ∃ c, A 0 c ≠ 0
  · obtain ⟨M', det', indx', hl', -, -, δ, h1, h2, h3, h4⟩ := main_{M} A h
    rw [hl'] at hl
    injection hl with hl
    injection hl with e1 hl
    injection hl with e2 e3
    subst e1 e2 e3
    exact ⟨δ, h1, singular_iff h1 h2, h3, h4⟩
  · push Not at h
    rw [panics_{M} A h] at hl
    cases hl

example : ∃ M det indx, {M}.lu (onlyAbove {n-2}) = .ok (M, det, indx) := by
  obtain ⟨M, det, indx, hl, -⟩ := main_{M} (onlyAbove {n-2}) ⟨1, by simp [onlyAbove]⟩
  exact ⟨M, det, indx, hl⟩

/-- C31: the pivot record stays in range, so replaying it permutes the rows. -/
theorem C31_pivots_{M} (A M : Mat {n} ℝ) (det : ℝ) (indx : Vec {n} ℕ)
    (hl : {M}.lu A = .ok (M, det, indx)) : ∀ k : Fin {n}, k.val ≤ indx k ∧ indx k < {n} := by
  by_cases h : ∃ c, A 0 c ≠ 0
  · obtain ⟨M', det', indx', hl', h1, -⟩ := main_{M} A h
    rw [hl'] at hl
    injection hl with hl
    injection hl with _ hl
    injection hl with _ e3
    subst e3
    exact h1
  · push Not at h
    rw [panics_{M} A h] at hl
    cases hl

example : ∃ M det indx, {M}.lu (swapped {n-2}) = .ok (M, det, indx) ∧ indx 0 < {n} := by
  obtain ⟨M, det, indx, h1, -⟩ := C28_lu_{M} (swapped {n-2}) (swapped_det {n-2})
  exact ⟨M, det, indx, h1, (C31_pivots_{M} _ _ _ _ h1 0).2⟩

'''
out = out.replace("""  · revert c
    refine Fin.forall_fin_succ_pi_aux ?_
""", """  · fin_cases c <;> rfl
""")
out += "end\n\nend StaticMath\n"
open(os.path.join(os.path.dirname(__file__), '../lean/Verif/Props/Lu.lean'), 'w').write(out)

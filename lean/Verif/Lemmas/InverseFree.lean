import Verif.Lemmas.Inverse

/-!
# `inverse()` for any element type

Generated by `tools/gen_props_ieee.py`. No law about the operations is used.
-/

namespace StaticMath

variable {T : Type} [Add T] [Sub T] [Neg T] [Mul T] [Div T] [Zero T] [One T] [RAbs T] [ROrd T] [RFloat T]

set_option linter.unusedSectionVars false

theorem M22.inverse_cases (A : Mat 2 T) :
    (nearly_zero (M22.det A) = true ∧ M22.inverse A = .ok none) ∨
    (nearly_zero (M22.det A) = false ∧ ∃ B, M22.inverse A = .ok (some B)) := by
  unfold M22.inverse
  by_cases h : nearly_zero (M22.det A) = true
  · refine Or.inl ⟨h, ?_⟩
    simp only [h]
    rfl
  · have h' : nearly_zero (M22.det A) = false := by simpa using h
    refine Or.inr ⟨h', ?_⟩
    simp only [h', Bool.not_false, if_true]
    exact ⟨_, rfl⟩

theorem M33.inverse_cases (A : Mat 3 T) :
    (nearly_zero (M33.det A) = true ∧ M33.inverse A = .ok none) ∨
    (nearly_zero (M33.det A) = false ∧ ∃ B, M33.inverse A = .ok (some B)) := by
  unfold M33.inverse
  by_cases h : nearly_zero (M33.det A) = true
  · refine Or.inl ⟨h, ?_⟩
    simp only [h]
    rfl
  · have h' : nearly_zero (M33.det A) = false := by simpa using h
    refine Or.inr ⟨h', ?_⟩
    simp only [h', Bool.not_false, if_true]
    exact ⟨_, rfl⟩

theorem M44.inverse_cases (A : Mat 4 T) :
    (nearly_zero (M44.det A) = true ∧ M44.inverse A = .ok none) ∨
    (nearly_zero (M44.det A) = false ∧ ∃ B, M44.inverse A = .ok (some B)) := by
  unfold M44.inverse
  by_cases h : nearly_zero (M44.det A) = true
  · refine Or.inl ⟨h, ?_⟩
    simp only [h]
    rfl
  · have h' : nearly_zero (M44.det A) = false := by simpa using h
    refine Or.inr ⟨h', ?_⟩
    simp only [h', Bool.not_false, if_true]
    rw [show M44.get_submatrix A (0, 0) = _ from M44.get_submatrix_eq A 0 0]
    rw [show M44.get_submatrix A (0, 1) = _ from M44.get_submatrix_eq A 0 1]
    rw [show M44.get_submatrix A (0, 2) = _ from M44.get_submatrix_eq A 0 2]
    rw [show M44.get_submatrix A (0, 3) = _ from M44.get_submatrix_eq A 0 3]
    rw [show M44.get_submatrix A (1, 0) = _ from M44.get_submatrix_eq A 1 0]
    rw [show M44.get_submatrix A (1, 1) = _ from M44.get_submatrix_eq A 1 1]
    rw [show M44.get_submatrix A (1, 2) = _ from M44.get_submatrix_eq A 1 2]
    rw [show M44.get_submatrix A (1, 3) = _ from M44.get_submatrix_eq A 1 3]
    rw [show M44.get_submatrix A (2, 0) = _ from M44.get_submatrix_eq A 2 0]
    rw [show M44.get_submatrix A (2, 1) = _ from M44.get_submatrix_eq A 2 1]
    rw [show M44.get_submatrix A (2, 2) = _ from M44.get_submatrix_eq A 2 2]
    rw [show M44.get_submatrix A (2, 3) = _ from M44.get_submatrix_eq A 2 3]
    rw [show M44.get_submatrix A (3, 0) = _ from M44.get_submatrix_eq A 3 0]
    rw [show M44.get_submatrix A (3, 1) = _ from M44.get_submatrix_eq A 3 1]
    rw [show M44.get_submatrix A (3, 2) = _ from M44.get_submatrix_eq A 3 2]
    rw [show M44.get_submatrix A (3, 3) = _ from M44.get_submatrix_eq A 3 3]
    exact ⟨_, rfl⟩

theorem M55.inverse_cases (A : Mat 5 T) :
    (nearly_zero (M55.det A) = true ∧ M55.inverse A = .ok none) ∨
    (nearly_zero (M55.det A) = false ∧ ∃ B, M55.inverse A = .ok (some B)) := by
  unfold M55.inverse
  by_cases h : nearly_zero (M55.det A) = true
  · refine Or.inl ⟨h, ?_⟩
    simp only [h]
    rfl
  · have h' : nearly_zero (M55.det A) = false := by simpa using h
    refine Or.inr ⟨h', ?_⟩
    simp only [h', Bool.not_false, if_true]
    rw [forRange_set_mat _ (fun j i => (if (i.val + j.val) % 2 = 0 then (1 : T) else -1) *
      M44.det ⟨fun r c => A (i.succAbove r) (j.succAbove c)⟩)]
    · exact ⟨_, rfl⟩
    · intro i j hi hj r
      rw [show M55.get_submatrix A (i, j) = _ from M55.get_submatrix_eq A ⟨i, hi⟩ ⟨j, hj⟩]
      rfl

theorem M66.inverse_cases (A : Mat 6 T) :
    (nearly_zero (M66.det A) = true ∧ M66.inverse A = .ok none) ∨
    (nearly_zero (M66.det A) = false ∧ ∃ B, M66.inverse A = .ok (some B)) := by
  unfold M66.inverse
  by_cases h : nearly_zero (M66.det A) = true
  · refine Or.inl ⟨h, ?_⟩
    simp only [h]
    rfl
  · have h' : nearly_zero (M66.det A) = false := by simpa using h
    refine Or.inr ⟨h', ?_⟩
    simp only [h', Bool.not_false, if_true]
    rw [forRange_set_mat _ (fun j i => (if (i.val + j.val) % 2 = 0 then (1 : T) else -1) *
      M55.det ⟨fun r c => A (i.succAbove r) (j.succAbove c)⟩)]
    · exact ⟨_, rfl⟩
    · intro i j hi hj r
      rw [show M66.get_submatrix A (i, j) = _ from M66.get_submatrix_eq A ⟨i, hi⟩ ⟨j, hj⟩]
      rfl

end StaticMath

import Verif.Lemmas.Views
import Verif.Lemmas.Det
import Verif.Lemmas.Transfer
import Verif.Exact
import Verif.Spec.Basic
import Mathlib.LinearAlgebra.Matrix.Adjugate
import Mathlib.LinearAlgebra.Matrix.NonsingularInverse

/-!
# `inverse()` is the adjugate divided by the determinant

Generated by `tools/gen_inverse.py`.
-/

namespace StaticMath

theorem nearly_zero_iff [P : RealParams] (a : ℝ) : nearly_zero a = true ↔ |a| < P.eps := by
  have := P.eps_pos
  unfold nearly_zero nearly_equal
  by_cases h : a = 0
  · simp [h, this]
  · simp [h]

theorem nearly_zero_eq [P : RealParams] (a : ℝ) : nearly_zero a = decide (|a| < P.eps) := by
  by_cases h : |a| < P.eps
  · simp [h, (nearly_zero_iff a).2 h]
  · simp only [h, decide_false]
    exact Bool.eq_false_iff.2 fun hh => h ((nearly_zero_iff a).1 hh)

/-- A double loop writing every entry (transposed). -/
theorem forRange_set_mat {T : Type} {n : ℕ} (m : Mat n T) (g : Fin n → Fin n → T)
    (body : ℕ → ℕ → Mat n T → MayPanic (Mat n T))
    (hb : ∀ i j (hi : i < n) (hj : j < n) r, body i j r = r.set j i (g ⟨j, hj⟩ ⟨i, hi⟩)) :
    forRange 0 n m (fun i r => forRange 0 n r (body i)) = .ok ⟨g⟩ := by
  obtain ⟨s', hs, hP⟩ := forRange_invariant
    (fun k (r : Mat n T) => ∀ a b : Fin n, b.val < k → r.val a b = g a b) 0 n (Nat.zero_le _) m
    (fun i r => forRange 0 n r (body i))
    (fun a b h => absurd h (Nat.not_lt_zero _))
    (fun i s _ hi hinv => by
      obtain ⟨s', hs, hP⟩ := forRange_invariant
        (fun k (r : Mat n T) => ∀ a b : Fin n, (b.val < i ∨ b.val = i ∧ a.val < k) →
          r.val a b = g a b) 0 n (Nat.zero_le _) s (body i)
        (fun a b h => hinv a b (by omega))
        (fun j s _ hj hinv => by
          refine ⟨_, by rw [hb i j hi hj, Mat.set_ok _ _ _ hj hi], fun a b h => ?_⟩
          by_cases hab : a = ⟨j, hj⟩ ∧ b = ⟨i, hi⟩
          · simp only [hab.1, hab.2, and_self, if_true]
          · simp only [hab, if_false]
            have hne : ¬(a.val = j ∧ b.val = i) := fun h => hab ⟨Fin.ext h.1, Fin.ext h.2⟩
            exact hinv a b (by omega))
      exact ⟨s', hs, fun a b h => hP a b (by have := a.isLt; omega)⟩)
  rw [hs]
  congr 1
  exact Mat.ext (funext fun a => funext fun b => hP a b b.isLt)

variable [P : RealParams]

theorem M22.inverse_eq (A : Mat 2 ℝ) :
    M22.inverse A = .ok (if |M22.det A| < P.eps then none
      else some ⟨fun i j => A.toM.adjugate i j * (M22.det A)⁻¹⟩) := by
  unfold M22.inverse
  by_cases h : |M22.det A| < P.eps
  · simp only [nearly_zero_eq, h, decide_true, if_true]; rfl
  · simp only [nearly_zero_eq, h, decide_false, if_false, Bool.not_false, if_true]
    refine Eq.trans (b := Except.ok (some _)) rfl (congrArg _ (congrArg _ (Mat.ext
      (funext fun i => funext fun j => ?_))))
    rw [Matrix.adjugate_fin_two]
    fin_cases i <;> fin_cases j <;> rfl

theorem M33.inverse_eq (A : Mat 3 ℝ) :
    M33.inverse A = .ok (if |M33.det A| < P.eps then none
      else some ⟨fun i j => A.toM.adjugate i j * (M33.det A)⁻¹⟩) := by
  unfold M33.inverse
  by_cases h : |M33.det A| < P.eps
  · simp only [nearly_zero_eq, h, decide_true, if_true]; rfl
  · simp only [nearly_zero_eq, h, decide_false, if_false, Bool.not_false, if_true]
    refine Eq.trans (b := Except.ok (some _)) rfl (congrArg _ (congrArg _ (Mat.ext
      (funext fun i => funext fun j => ?_))))
    rw [Matrix.adjugate_fin_three]
    fin_cases i <;> fin_cases j
    · change (A.val 1 1 * A.val 2 2 - A.val 2 1 * A.val 1 2) * (M33.det A)⁻¹
        = (A.val 1 1 * A.val 2 2 - A.val 1 2 * A.val 2 1) * (M33.det A)⁻¹
      ring
    · change (A.val 0 2 * A.val 2 1 - A.val 0 1 * A.val 2 2) * (M33.det A)⁻¹
        = (-(A.val 0 1 * A.val 2 2) + A.val 0 2 * A.val 2 1) * (M33.det A)⁻¹
      ring
    · change (A.val 0 1 * A.val 1 2 - A.val 0 2 * A.val 1 1) * (M33.det A)⁻¹
        = (A.val 0 1 * A.val 1 2 - A.val 0 2 * A.val 1 1) * (M33.det A)⁻¹
      ring
    · change (A.val 1 2 * A.val 2 0 - A.val 1 0 * A.val 2 2) * (M33.det A)⁻¹
        = (-(A.val 1 0 * A.val 2 2) + A.val 1 2 * A.val 2 0) * (M33.det A)⁻¹
      ring
    · change (A.val 0 0 * A.val 2 2 - A.val 0 2 * A.val 2 0) * (M33.det A)⁻¹
        = (A.val 0 0 * A.val 2 2 - A.val 0 2 * A.val 2 0) * (M33.det A)⁻¹
      ring
    · change (A.val 1 0 * A.val 0 2 - A.val 0 0 * A.val 1 2) * (M33.det A)⁻¹
        = (-(A.val 0 0 * A.val 1 2) + A.val 0 2 * A.val 1 0) * (M33.det A)⁻¹
      ring
    · change (A.val 1 0 * A.val 2 1 - A.val 2 0 * A.val 1 1) * (M33.det A)⁻¹
        = (A.val 1 0 * A.val 2 1 - A.val 1 1 * A.val 2 0) * (M33.det A)⁻¹
      ring
    · change (A.val 2 0 * A.val 0 1 - A.val 0 0 * A.val 2 1) * (M33.det A)⁻¹
        = (-(A.val 0 0 * A.val 2 1) + A.val 0 1 * A.val 2 0) * (M33.det A)⁻¹
      ring
    · change (A.val 0 0 * A.val 1 1 - A.val 1 0 * A.val 0 1) * (M33.det A)⁻¹
        = (A.val 0 0 * A.val 1 1 - A.val 0 1 * A.val 1 0) * (M33.det A)⁻¹
      ring

theorem M44.inverse_eq (A : Mat 4 ℝ) :
    M44.inverse A = .ok (if |M44.det A| < P.eps then none
      else some ⟨fun i j => A.toM.adjugate i j * (M44.det A)⁻¹⟩) := by
  unfold M44.inverse
  by_cases h : |M44.det A| < P.eps
  · simp only [nearly_zero_eq, h, decide_true, if_true]; rfl
  · simp only [nearly_zero_eq, h, decide_false, if_false, Bool.not_false, if_true]
    rw [show M44.get_submatrix A (0, 0) = _ from M44.get_submatrix_eq A 0 0]
    rw [show M44.get_submatrix A (0, 1) = _ from M44.get_submatrix_eq A 0 1]
    rw [show M44.get_submatrix A (0, 2) = _ from M44.get_submatrix_eq A 0 2]
    rw [show M44.get_submatrix A (0, 3) = _ from M44.get_submatrix_eq A 0 3]
    rw [show M44.get_submatrix A (1, 0) = _ from M44.get_submatrix_eq A 1 0]
    rw [show M44.get_submatrix A (1, 1) = _ from M44.get_submatrix_eq A 1 1]
    rw [show M44.get_submatrix A (1, 2) = _ from M44.get_submatrix_eq A 1 2]
    rw [show M44.get_submatrix A (1, 3) = _ from M44.get_submatrix_eq A 1 3]
    rw [show M44.get_submatrix A (2, 0) = _ from M44.get_submatrix_eq A 2 0]
    rw [show M44.get_submatrix A (2, 1) = _ from M44.get_submatrix_eq A 2 1]
    rw [show M44.get_submatrix A (2, 2) = _ from M44.get_submatrix_eq A 2 2]
    rw [show M44.get_submatrix A (2, 3) = _ from M44.get_submatrix_eq A 2 3]
    rw [show M44.get_submatrix A (3, 0) = _ from M44.get_submatrix_eq A 3 0]
    rw [show M44.get_submatrix A (3, 1) = _ from M44.get_submatrix_eq A 3 1]
    rw [show M44.get_submatrix A (3, 2) = _ from M44.get_submatrix_eq A 3 2]
    rw [show M44.get_submatrix A (3, 3) = _ from M44.get_submatrix_eq A 3 3]
    refine Eq.trans (b := Except.ok (some _)) rfl (congrArg _ (congrArg _ (Mat.ext
      (funext fun i => funext fun j => ?_))))
    have key (i j : Fin 4) : A.toM.adjugate i j = (-1) ^ (j + i : ℕ) *
        M33.det ⟨fun r c => A (j.succAbove r) (i.succAbove c)⟩ := by
      rw [Matrix.adjugate_fin_succ_eq_det_submatrix, M33.det_eq]; rfl
    have hp (k : ℕ) (x : ℝ) (hk : k % 2 = 0) : x = (-1) ^ k * x := by
      rw [Even.neg_one_pow (Nat.even_iff.2 hk), one_mul]
    have hm (k : ℕ) (x : ℝ) (hk : k % 2 = 1) : -x = (-1) ^ k * x := by
      rw [Odd.neg_one_pow (Nat.odd_iff.2 hk), neg_one_mul]
    refine Eq.trans ?_ (congrArg (fun y => y * (M44.det A)⁻¹) (key i j).symm)
    fin_cases i <;> fin_cases j <;>
      first
      | exact congrArg (fun y => y * (M44.det A)⁻¹) (hp _ _ rfl)
      | exact congrArg (fun y => y * (M44.det A)⁻¹) (hm _ _ rfl)

theorem M55.inverse_eq (A : Mat 5 ℝ) :
    M55.inverse A = .ok (if |M55.det A| < P.eps then none
      else some ⟨fun i j => A.toM.adjugate i j * (M55.det A)⁻¹⟩) := by
  unfold M55.inverse
  by_cases h : |M55.det A| < P.eps
  · simp only [nearly_zero_eq, h, decide_true, if_true]; rfl
  · simp only [nearly_zero_eq, h, decide_false, if_false, Bool.not_false, if_true]
    rw [forRange_set_mat _ (fun i j => A.toM.adjugate i j)]
    · refine Eq.trans (b := Except.ok (some _)) rfl (congrArg _ (congrArg _ (Mat.ext
        (funext fun i => funext fun j => ?_))))
      exact (M55.sdiv_apply _ _ i j).trans (by rw [div_eq_mul_inv])
    · intro i j hi hj r
      rw [show M55.get_submatrix A (i, j) = _ from M55.get_submatrix_eq A ⟨i, hi⟩ ⟨j, hj⟩]
      refine congrArg (Mat.set r j i) ?_
      rw [Matrix.adjugate_fin_succ_eq_det_submatrix, M44.det_eq]
      refine congrArg₂ (· * ·) ?_ rfl
      change _ = (-1 : ℝ) ^ (i + j)
      rcases Nat.mod_two_eq_zero_or_one (i + j) with h0 | h0
      · rw [if_pos h0, Even.neg_one_pow (Nat.even_iff.2 h0)]
      · rw [if_neg (by omega), Odd.neg_one_pow (Nat.odd_iff.2 h0)]

theorem M66.inverse_eq (A : Mat 6 ℝ) :
    M66.inverse A = .ok (if |M66.det A| < P.eps then none
      else some ⟨fun i j => A.toM.adjugate i j * (M66.det A)⁻¹⟩) := by
  unfold M66.inverse
  by_cases h : |M66.det A| < P.eps
  · simp only [nearly_zero_eq, h, decide_true, if_true]; rfl
  · simp only [nearly_zero_eq, h, decide_false, if_false, Bool.not_false, if_true]
    rw [forRange_set_mat _ (fun i j => A.toM.adjugate i j)]
    · refine Eq.trans (b := Except.ok (some _)) rfl (congrArg _ (congrArg _ (Mat.ext
        (funext fun i => funext fun j => ?_))))
      exact (M66.smul_apply _ _ i j).trans (by rw [rfloat_recip])
    · intro i j hi hj r
      rw [show M66.get_submatrix A (i, j) = _ from M66.get_submatrix_eq A ⟨i, hi⟩ ⟨j, hj⟩]
      refine congrArg (Mat.set r j i) ?_
      rw [Matrix.adjugate_fin_succ_eq_det_submatrix, M55.det_eq]
      refine congrArg₂ (· * ·) ?_ rfl
      change _ = (-1 : ℝ) ^ (i + j)
      rcases Nat.mod_two_eq_zero_or_one (i + j) with h0 | h0
      · rw [if_pos h0, Even.neg_one_pow (Nat.even_iff.2 h0)]
      · rw [if_neg (by omega), Odd.neg_one_pow (Nat.odd_iff.2 h0)]

end StaticMath

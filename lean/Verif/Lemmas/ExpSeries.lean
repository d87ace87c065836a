import Mathlib.Analysis.Normed.Algebra.MatrixExponential
import Mathlib.Analysis.SpecialFunctions.Trigonometric.Series

/-!
# The exponential series of an element with `Y ^ 4 = -Y ^ 2`

Both the generators of rotations (`K ^ 3 = -K`) and the normalised twists have this property.
-/

namespace StaticMath

open NormedSpace

section
variable {A : Type} [Ring A] [Algebra ℝ A] [TopologicalSpace A] [IsTopologicalRing A] [T2Space A]
  [ContinuousSMul ℝ A]

omit [TopologicalSpace A] [IsTopologicalRing A] [T2Space A] [ContinuousSMul ℝ A] in
private theorem pow_even (Y : A) (h : Y ^ 4 = -Y ^ 2) (n : ℕ) :
    Y ^ (2 * (n + 1)) = (-1 : ℝ) ^ n • Y ^ 2 := by
  induction n with
  | zero => simp
  | succ n ih =>
    rw [show 2 * (n + 1 + 1) = 2 * (n + 1) + 2 by ring, pow_add, ih, smul_mul_assoc, ← pow_add,
      show 2 + 2 = 4 from rfl, h, pow_succ (-1 : ℝ), mul_neg_one, neg_smul, smul_neg]

omit [TopologicalSpace A] [IsTopologicalRing A] [T2Space A] [ContinuousSMul ℝ A] in
private theorem pow_odd (Y : A) (h : Y ^ 4 = -Y ^ 2) (n : ℕ) :
    Y ^ (2 * (n + 1) + 1) = (-1 : ℝ) ^ n • Y ^ 3 := by
  rw [pow_succ, pow_even Y h, smul_mul_assoc, ← pow_succ]

omit [T2Space A] in
private theorem hasSum_even (Y : A) (h : Y ^ 4 = -Y ^ 2) (t : ℝ) :
    HasSum (fun k : ℕ => (((2 * k).factorial : ℝ)⁻¹) • (t • Y) ^ (2 * k))
      ((1 + Y ^ 2) - Real.cos t • Y ^ 2) := by
  have h1 : HasSum (fun k : ℕ => if k = 0 then 1 + Y ^ 2 else 0) (1 + Y ^ 2) :=
    hasSum_ite_eq 0 (1 + Y ^ 2)
  have h2 := h1.sub ((Real.hasSum_cos t).smul_const (Y ^ 2))
  have e : (fun k : ℕ => (((2 * k).factorial : ℝ)⁻¹) • (t • Y) ^ (2 * k)) = fun k : ℕ =>
      (if k = 0 then 1 + Y ^ 2 else 0) - ((-1) ^ k * t ^ (2 * k) / ((2 * k).factorial : ℝ)) • Y ^ 2 := by
    funext k
    rcases k with - | k
    · simp
    · have e : ((2 * (k + 1)).factorial : ℝ)⁻¹ * t ^ (2 * (k + 1)) * (-1) ^ k =
          -((-1) ^ (k + 1) * t ^ (2 * (k + 1)) / ((2 * (k + 1)).factorial : ℝ)) := by
        rw [pow_succ (-1 : ℝ) k]; ring
      rw [if_neg (Nat.succ_ne_zero k), smul_pow, pow_even Y h, smul_smul, smul_smul, zero_sub,
        ← neg_smul, ← e]
  rw [e]
  exact h2

omit [T2Space A] in
private theorem hasSum_odd (Y : A) (h : Y ^ 4 = -Y ^ 2) (t : ℝ) :
    HasSum (fun k : ℕ => (((2 * k + 1).factorial : ℝ)⁻¹) • (t • Y) ^ (2 * k + 1))
      ((t • Y + t • Y ^ 3) - Real.sin t • Y ^ 3) := by
  have h1 : HasSum (fun k : ℕ => if k = 0 then t • Y + t • Y ^ 3 else 0) (t • Y + t • Y ^ 3) :=
    hasSum_ite_eq 0 (t • Y + t • Y ^ 3)
  have h2 := h1.sub ((Real.hasSum_sin t).smul_const (Y ^ 3))
  have e : (fun k : ℕ => (((2 * k + 1).factorial : ℝ)⁻¹) • (t • Y) ^ (2 * k + 1)) = fun k : ℕ =>
      (if k = 0 then t • Y + t • Y ^ 3 else 0)
        - ((-1) ^ k * t ^ (2 * k + 1) / ((2 * k + 1).factorial : ℝ)) • Y ^ 3 := by
    funext k
    rcases k with - | k
    · simp
    · have e : ((2 * (k + 1) + 1).factorial : ℝ)⁻¹ * t ^ (2 * (k + 1) + 1) * (-1) ^ k =
          -((-1) ^ (k + 1) * t ^ (2 * (k + 1) + 1) / ((2 * (k + 1) + 1).factorial : ℝ)) := by
        rw [pow_succ (-1 : ℝ) k]; ring
      rw [if_neg (Nat.succ_ne_zero k), smul_pow, pow_odd Y h, smul_smul, smul_smul, zero_sub,
        ← neg_smul, ← e]
  rw [e]
  exact h2

/-- Closed form of the exponential series. -/
theorem exp_of_pow_four (Y : A) (h : Y ^ 4 = -Y ^ 2) (t : ℝ) :
    exp (t • Y) = 1 + t • Y + (1 - Real.cos t) • Y ^ 2 + (t - Real.sin t) • Y ^ 3 := by
  rw [exp_eq_tsum ℝ]
  have hs := HasSum.even_add_odd (f := fun n : ℕ => ((n.factorial : ℝ)⁻¹) • (t • Y) ^ n)
    (hasSum_even Y h t) (hasSum_odd Y h t)
  refine hs.tsum_eq.trans ?_
  rw [sub_smul, sub_smul, one_smul]
  abel

/-- The series of a generator of rotations. -/
theorem exp_of_pow_three (K : A) (h : K ^ 3 = -K) (t : ℝ) :
    exp (t • K) = 1 + Real.sin t • K + (1 - Real.cos t) • K ^ 2 := by
  have h4 : K ^ 4 = -K ^ 2 := by rw [pow_succ, h, neg_mul, ← sq]
  rw [exp_of_pow_four K h4, h, smul_neg, sub_smul t]
  abel

/-- The series of an element with square zero. -/
theorem exp_of_sq_zero (X : A) (h : X ^ 2 = 0) : exp X = 1 + X := by
  have := exp_of_pow_four X (by rw [show 4 = 2 + 2 from rfl, pow_add, h, zero_mul, neg_zero]) 1
  rw [one_smul, pow_succ X 2, h] at this
  simpa using this

end

end StaticMath

import Verif.Model.DualQuaternion
import Mathlib.Analysis.SpecialFunctions.Trigonometric.Inverse
import Mathlib.Analysis.SpecialFunctions.Log.Basic
import Mathlib.Analysis.SpecialFunctions.Complex.Arg
import Mathlib.Analysis.Real.Sqrt

/-!
# Exact interpretation of the element type

`ROrd` and `RAbs` are interpreted by the order and the absolute value of a linearly ordered group.
`RFloat ℝ` interprets the floating point functions by the exact real functions. The constants that
depend on the float format are parameters (`RealParams`).
-/

namespace StaticMath

/-- Comparison operators of a linear order (integers, exact reals). -/
instance instROrd {T : Type} [LinearOrder T] : ROrd T where
  lt a b := decide (a < b)
  le a b := decide (a ≤ b)
  beq a b := decide (a = b)

/-- `abs` of a linearly ordered group. -/
instance instRAbs {T : Type} [Lattice T] [AddGroup T] : RAbs T where
  abs a := |a|

/-- The format-dependent constants of a float type, as real numbers. -/
class RealParams where
  /-- `T::epsilon()` -/
  eps : ℝ
  eps_pos : 0 < eps
  eps_le : eps ≤ 1 / 10 ^ 6
  /-- `T::max_value()`; `T::min_value()` is `-maxVal` -/
  maxVal : ℝ
  maxVal_ge : 10 ^ 38 ≤ maxVal
  /-- `T::from(1e-40)` -/
  tiny : ℝ
  tiny_pos : 0 < tiny
  tiny_le : tiny ≤ 1 / 10 ^ 39
  /-- the real number standing for `T::infinity()`; nothing is assumed about it -/
  infVal : ℝ

/-- The constants of `f64`. -/
@[instance_reducible] noncomputable def f64Params : RealParams where
  eps := 1 / 2 ^ 52
  eps_pos := by norm_num
  eps_le := by norm_num
  maxVal := (2 - 1 / 2 ^ 52) * 2 ^ 1023
  maxVal_ge := by
    have h : (2 : ℝ) ^ 127 ≤ 2 ^ 1023 := pow_le_pow_right₀ (by norm_num) (by norm_num)
    have h1 : (10 : ℝ) ^ 38 ≤ 2 ^ 127 := by norm_num
    have h2 : (1 : ℝ) ≤ 2 - 1 / 2 ^ 52 := by norm_num
    calc (10 : ℝ) ^ 38 ≤ 1 * 2 ^ 1023 := by rw [one_mul]; exact h1.trans h
      _ ≤ (2 - 1 / 2 ^ 52) * 2 ^ 1023 := mul_le_mul_of_nonneg_right h2 (by positivity)
  tiny := 1 / 10 ^ 40
  tiny_pos := by norm_num
  tiny_le := by norm_num
  infVal := 2 ^ 1024

/-- The constants of `f32` (`1e-40` rounds to the subnormal `71362 * 2^-149`). -/
@[instance_reducible] noncomputable def f32Params : RealParams where
  eps := 1 / 2 ^ 23
  eps_pos := by norm_num
  eps_le := by norm_num
  maxVal := (2 - 1 / 2 ^ 23) * 2 ^ 127
  maxVal_ge := by norm_num
  tiny := 71362 / 2 ^ 149
  tiny_pos := by norm_num
  tiny_le := by norm_num
  infVal := 2 ^ 128

/-- The functions of `num::Float` on exact reals. -/
noncomputable instance instRFloatReal [P : RealParams] : RFloat ℝ where
  sqrt := Real.sqrt
  recip x := x⁻¹
  sin := Real.sin
  cos := Real.cos
  tan := Real.tan
  acos := Real.arccos
  exp := Real.exp
  ln := Real.log
  atan2 y x := Complex.arg ⟨x, y⟩
  min a b := Min.min a b
  epsilon := P.eps
  min_value := -P.maxVal
  max_value := P.maxVal
  infinity := P.infVal
  pi := Real.pi
  frac_pi_2 := Real.pi / 2
  lit2 := 2
  lit4 := 4
  lit1em40 := P.tiny
  lit0001 := 1 / 1000
  lit1em6 := 1 / 10 ^ 6

section simp
variable {T : Type}

@[simp] theorem rord_lt [LinearOrder T] (a b : T) : ROrd.lt a b = decide (a < b) := rfl
@[simp] theorem rord_le [LinearOrder T] (a b : T) : ROrd.le a b = decide (a ≤ b) := rfl
@[simp] theorem rord_beq [LinearOrder T] (a b : T) : ROrd.beq a b = decide (a = b) := rfl
@[simp] theorem rabs_abs [Lattice T] [AddGroup T] (a : T) : RAbs.abs a = |a| := rfl

variable [P : RealParams]
@[simp] theorem rfloat_sqrt (a : ℝ) : RFloat.sqrt a = Real.sqrt a := rfl
@[simp] theorem rfloat_recip (a : ℝ) : RFloat.recip a = a⁻¹ := rfl
@[simp] theorem rfloat_sin (a : ℝ) : RFloat.sin a = Real.sin a := rfl
@[simp] theorem rfloat_cos (a : ℝ) : RFloat.cos a = Real.cos a := rfl
@[simp] theorem rfloat_tan (a : ℝ) : RFloat.tan a = Real.tan a := rfl
@[simp] theorem rfloat_acos (a : ℝ) : RFloat.acos a = Real.arccos a := rfl
@[simp] theorem rfloat_exp (a : ℝ) : RFloat.exp a = Real.exp a := rfl
@[simp] theorem rfloat_ln (a : ℝ) : RFloat.ln a = Real.log a := rfl
@[simp] theorem rfloat_atan2 (a b : ℝ) : RFloat.atan2 a b = Complex.arg ⟨b, a⟩ := rfl
@[simp] theorem rfloat_min (a b : ℝ) : RFloat.min a b = Min.min a b := rfl
@[simp] theorem rfloat_epsilon : (RFloat.epsilon : ℝ) = P.eps := rfl
@[simp] theorem rfloat_min_value : (RFloat.min_value : ℝ) = -P.maxVal := rfl
@[simp] theorem rfloat_max_value : (RFloat.max_value : ℝ) = P.maxVal := rfl
@[simp] theorem rfloat_infinity : (RFloat.infinity : ℝ) = P.infVal := rfl
@[simp] theorem rfloat_pi : (RFloat.pi : ℝ) = Real.pi := rfl
@[simp] theorem rfloat_frac_pi_2 : (RFloat.frac_pi_2 : ℝ) = Real.pi / 2 := rfl
@[simp] theorem rfloat_lit2 : (RFloat.lit2 : ℝ) = 2 := rfl
@[simp] theorem rfloat_lit4 : (RFloat.lit4 : ℝ) = 4 := rfl
@[simp] theorem rfloat_lit1em40 : (RFloat.lit1em40 : ℝ) = P.tiny := rfl
@[simp] theorem rfloat_lit0001 : (RFloat.lit0001 : ℝ) = 1 / 1000 := rfl
@[simp] theorem rfloat_lit1em6 : (RFloat.lit1em6 : ℝ) = 1 / 10 ^ 6 := rfl

end simp

end StaticMath

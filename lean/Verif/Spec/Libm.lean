import Verif.Ieee.Lemmas
import Mathlib.Analysis.SpecialFunctions.Trigonometric.Basic
import Mathlib.Analysis.SpecialFunctions.Complex.Arg

/-!
# Accuracy of the mathematical library

A hypothesis of the theorems that need one, never an axiom.
-/

namespace StaticMath

/-- `sin` and `cos` of finite floats are finite and within `ε` of the true values. -/
structure SinCosAcc (f : Fmt) [L : Libm f] (ε : ℝ) : Prop where
  sin : ∀ x : Flt f, x.IsFin → (L.sin x).IsFin ∧ |(L.sin x).toReal - Real.sin x.toReal| ≤ ε
  cos : ∀ x : Flt f, x.IsFin → (L.cos x).IsFin ∧ |(L.cos x).toReal - Real.cos x.toReal| ≤ ε

/-- `atan2 y x` is finite and within `ε` of the angle of the point `(x, y)`. Points on the negative `x` axis and the
origin are left out: there the result depends on the signs of zeros. -/
def Atan2Acc (f : Fmt) [L : Libm f] (ε : ℝ) : Prop :=
  ∀ y x : Flt f, y.IsFin → x.IsFin → 0 < y.toReal ∨ 0 < x.toReal →
    (L.atan2 y x).IsFin ∧ |(L.atan2 y x).toReal - Complex.arg ⟨x.toReal, y.toReal⟩| ≤ ε

end StaticMath

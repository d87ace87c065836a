import Verif.Ieee.Lemmas
import Mathlib.Analysis.SpecialFunctions.Log.Basic
import Mathlib.Analysis.SpecialFunctions.Complex.Arg

/-!
# Accuracy of `exp`, `ln` and of `atan2` on the negative axis

Hypotheses about the mathematical library, in the range in which they are used.
-/

namespace StaticMath

/-- `exp` of a finite float between `-4` and `4` is finite and has relative error at most `ε`. -/
def ExpAcc (f : Fmt) [L : Libm f] (ε : ℝ) : Prop :=
  ∀ x : Flt f, x.IsFin → |x.toReal| ≤ 4 → (L.exp x).IsFin ∧ |(L.exp x).toReal - Real.exp x.toReal| ≤ ε * Real.exp x.toReal

/-- `ln` of a finite float between `1/32` and `32` is finite and within `ε` of the natural logarithm. -/
def LnAcc (f : Fmt) [L : Libm f] (ε : ℝ) : Prop :=
  ∀ x : Flt f, x.IsFin → 1 / 32 ≤ x.toReal → x.toReal ≤ 32 → (L.ln x).IsFin ∧ |(L.ln x).toReal - Real.log x.toReal| ≤ ε

/-- On the negative `x` axis `atan2` is within `ε` of `π` or of `-π`, depending on the sign of the zero. -/
def Atan2Neg (f : Fmt) [L : Libm f] (ε : ℝ) : Prop :=
  ∀ y x : Flt f, y.IsFin → x.IsFin → y.toReal = 0 → x.toReal < 0 →
    (L.atan2 y x).IsFin ∧ |(|(L.atan2 y x).toReal| - Real.pi)| ≤ ε

end StaticMath

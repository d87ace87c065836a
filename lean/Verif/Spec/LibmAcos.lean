import Verif.Ieee.Lemmas
import Mathlib.Analysis.SpecialFunctions.Trigonometric.Inverse

/-!
# Accuracy of the inverse cosine

A hypothesis of the theorems that need one, never an axiom.
-/

namespace StaticMath

/-- `acos` of a finite float between `-1` and `1` is finite and within `ε` of the true value. -/
def AcosAcc (f : Fmt) [L : Libm f] (ε : ℝ) : Prop :=
  ∀ x : Flt f, x.IsFin → |x.toReal| ≤ 1 → (L.acos x).IsFin ∧ |(L.acos x).toReal - Real.arccos x.toReal| ≤ ε

end StaticMath

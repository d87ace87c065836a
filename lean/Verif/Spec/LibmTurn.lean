import Verif.Ieee.Lemmas
import Mathlib.Analysis.SpecialFunctions.Complex.Arg

/-!
# Accuracy of the angle of a point, in the whole plane

A hypothesis of the theorems that need one, never an axiom.
-/

namespace StaticMath

/-- `atan2 y x` is finite and, up to full turns, within `ε` of the angle of the point `(x, y)`; the origin is left out.
Full turns matter on the negative `x` axis, where the sign of a zero `y` selects `π` or `-π`. -/
def Atan2Turn (f : Fmt) [L : Libm f] (ε : ℝ) : Prop :=
  ∀ y x : Flt f, y.IsFin → x.IsFin → y.toReal ≠ 0 ∨ x.toReal ≠ 0 →
    (L.atan2 y x).IsFin ∧ ∃ k : ℤ, |(L.atan2 y x).toReal - (Complex.arg ⟨x.toReal, y.toReal⟩ + k * (2 * Real.pi))| ≤ ε

/-- The constant `FRAC_PI_2` is finite and within `ε` of a quarter turn. -/
def FracPi2Acc (f : Fmt) [L : Libm f] (ε : ℝ) : Prop :=
  L.frac_pi_2.IsFin ∧ |L.frac_pi_2.toReal - Real.pi / 2| ≤ ε

end StaticMath

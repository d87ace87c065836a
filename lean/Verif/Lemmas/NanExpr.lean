import Verif.Ieee.Expr
import Verif.Ieee.Sum

/-!
# Expressions and NaN

An expression of sums, differences and products in which a NaN variable occurs evaluates to NaN.
-/

namespace StaticMath
open Flt

namespace Ex
variable {ι : Type} {f : Fmt}

/-- The variable `i` occurs in the expression. -/
def occurs [DecidableEq ι] (i : ι) : Ex ι → Bool
  | var j => decide (i = j)
  | zero => false
  | one => false
  | neg a => occurs i a
  | add a b => occurs i a || occurs i b
  | sub a b => occurs i a || occurs i b
  | mul a b => occurs i a || occurs i b

theorem evalF_nan [DecidableEq ι] {i : ι} {x : ι → Flt f} (hx : x i = Flt.nan) (e : Ex ι) (h : occurs i e = true) :
    evalF x e = Flt.nan := by
  induction e with
  | var j =>
    rw [occurs, decide_eq_true_eq] at h
    subst h
    exact hx
  | zero => cases h
  | one => cases h
  | neg a iha => rw [evalF, iha h]; rfl
  | add a b iha ihb =>
    rw [occurs, Bool.or_eq_true] at h
    rcases h with h | h
    · rw [evalF, iha h]; rfl
    · rw [evalF, ihb h, Flt.add_nan]
  | sub a b iha ihb =>
    rw [occurs, Bool.or_eq_true] at h
    rcases h with h | h
    · rw [evalF, iha h]; rfl
    · rw [evalF, ihb h]
      cases evalF x a <;> rfl
  | mul a b iha ihb =>
    rw [occurs, Bool.or_eq_true] at h
    rcases h with h | h
    · rw [evalF, iha h]; rfl
    · rw [evalF, ihb h, Flt.mul_nan]

end Ex
end StaticMath

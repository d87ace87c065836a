import Verif.Ieee.Round
import Verif.Model.Num

/-!
# IEEE 754 floats as an element type

Every arithmetic instance of the model is interpreted by the correctly rounded operation (round to
nearest, ties to even), with infinities, NaN and signed zeros. NaN has no sign or payload. Whatever
IEEE 754 and Rust do not specify (`sin`, `cos`, …, the conversion of decimal literals, the sign of a
zero returned by `min`) is an arbitrary parameter (`Libm`) or irrelevant to the results proved.
-/

namespace StaticMath

/-- A float of the format `f`: NaN, an infinity, or a sign and a representable magnitude. -/
inductive Flt (f : Fmt) where
  | nan
  | inf (neg : Bool)
  | fin (neg : Bool) (mag : ℝ) (h : f.Rep mag)

namespace Flt
variable {f : Fmt}

/-- Finite value of a magnitude with a sign. -/
noncomputable def sgn (neg : Bool) (x : ℝ) : ℝ := if neg then -x else x

/-- The magnitude `x ≥ 0` rounded, with the given sign. -/
noncomputable def pack (f : Fmt) (neg : Bool) (x : ℝ) : Flt f :=
  open Classical in
  if h : 0 ≤ x ∧ f.rnd x < (2 : ℝ) ^ (f.emax + 1) then fin neg (f.rnd x) (f.rep_rnd h.1 h.2) else inf neg

/-- A real number rounded; `zneg` is the sign given to an exact zero. -/
noncomputable def ofReal (f : Fmt) (zneg : Bool) (r : ℝ) : Flt f :=
  open Classical in
  pack f (if r = 0 then zneg else decide (r < 0)) |r|

def neg : Flt f → Flt f
  | nan => nan
  | inf s => inf (!s)
  | fin s x h => fin (!s) x h

def abs : Flt f → Flt f
  | nan => nan
  | inf _ => inf false
  | fin _ x h => fin false x h

noncomputable def add : Flt f → Flt f → Flt f
  | nan, _ => nan
  | _, nan => nan
  | inf s, inf t => if s = t then inf s else nan
  | inf s, fin _ _ _ => inf s
  | fin _ _ _, inf t => inf t
  | fin s x _, fin t y _ => ofReal f (s && t) (sgn s x + sgn t y)

noncomputable def mul : Flt f → Flt f → Flt f
  | nan, _ => nan
  | _, nan => nan
  | inf s, inf t => inf (s != t)
  | inf s, fin t y _ => open Classical in if y = 0 then nan else inf (s != t)
  | fin s x _, inf t => open Classical in if x = 0 then nan else inf (s != t)
  | fin s x _, fin t y _ => pack f (s != t) (x * y)

noncomputable def div : Flt f → Flt f → Flt f
  | nan, _ => nan
  | _, nan => nan
  | inf _, inf _ => nan
  | inf s, fin t _ _ => inf (s != t)
  | fin s _ _, inf t => fin (s != t) 0 f.rep_zero
  | fin s x _, fin t y _ => open Classical in
    if y = 0 then (if x = 0 then nan else inf (s != t)) else pack f (s != t) (x / y)

noncomputable def sqrt : Flt f → Flt f
  | nan => nan
  | inf s => if s then nan else inf false
  | fin s x h => open Classical in
    if x = 0 then fin s x h else if s then nan else pack f false (Real.sqrt x)

/-- Position in the order of the extended reals: sign of infinity, then the finite value. -/
noncomputable def lt : Flt f → Flt f → Bool
  | nan, _ => false
  | _, nan => false
  | inf s, inf t => s && !t
  | inf s, fin _ _ _ => s
  | fin _ _ _, inf t => !t
  | fin s x _, fin t y _ => open Classical in decide (sgn s x < sgn t y)

noncomputable def beq : Flt f → Flt f → Bool
  | nan, _ => false
  | _, nan => false
  | inf s, inf t => s == t
  | inf _, fin _ _ _ => false
  | fin _ _ _, inf _ => false
  | fin s x _, fin t y _ => open Classical in decide (sgn s x = sgn t y)

noncomputable instance : Add (Flt f) := ⟨add⟩
instance : Neg (Flt f) := ⟨neg⟩
noncomputable instance : Sub (Flt f) := ⟨fun a b => add a (neg b)⟩
noncomputable instance : Mul (Flt f) := ⟨mul⟩
noncomputable instance : Div (Flt f) := ⟨div⟩
noncomputable instance : Zero (Flt f) := ⟨fin false 0 f.rep_zero⟩
instance : RAbs (Flt f) := ⟨abs⟩
noncomputable instance : ROrd (Flt f) := ⟨lt, fun a b => lt a b || beq a b, beq⟩

theorem rep_one (f : Fmt) : f.Rep 1 := by
  have := f.hp
  have := f.hmin
  have := f.hmax
  have h := f.rep_two_zpow 0 (by omega) (by omega)
  simpa using h

noncomputable instance : One (Flt f) := ⟨fin false 1 (rep_one f)⟩

/-- The largest finite magnitude `(2^p - 1) * 2^(emax - p + 1)`. -/
theorem rep_max (f : Fmt) : f.Rep (((2 ^ f.p - 1 : ℕ) : ℝ) * (2 : ℝ) ^ (f.emax - f.p + 1)) := by
  have := f.hmin
  have := f.hmax
  refine ⟨2 ^ f.p - 1, f.emax - f.p + 1, rfl, ?_, by omega, by omega⟩
  have : 0 < 2 ^ f.p := by positivity
  omega

theorem rep_eps (f : Fmt) : f.Rep ((2 : ℝ) ^ (1 - (f.p : ℤ))) := by
  have := f.hmin
  have := f.hmax
  have := f.hp
  exact f.rep_two_zpow _ (by omega) (by omega)

/-- `T::epsilon()` -/
noncomputable def epsilon (f : Fmt) : Flt f := fin false _ (rep_eps f)
/-- `T::max_value()` -/
noncomputable def maxValue (f : Fmt) : Flt f := fin false _ (rep_max f)

end Flt

/-- The functions and conversions whose results IEEE 754 does not fix: nothing is assumed about
them. -/
class Libm (f : Fmt) where
  sin : Flt f → Flt f
  cos : Flt f → Flt f
  tan : Flt f → Flt f
  acos : Flt f → Flt f
  exp : Flt f → Flt f
  ln : Flt f → Flt f
  atan2 : Flt f → Flt f → Flt f
  pi : Flt f
  frac_pi_2 : Flt f
  lit1em40 : Flt f
  lit0001 : Flt f
  lit1em6 : Flt f

/-- `num::Float` for floats; `recip` is `1/x`, `min` ignores a NaN operand. -/
noncomputable instance instRFloatFlt {f : Fmt} [L : Libm f] : RFloat (Flt f) where
  sqrt := Flt.sqrt
  recip x := 1 / x
  sin := L.sin
  cos := L.cos
  tan := L.tan
  acos := L.acos
  exp := L.exp
  ln := L.ln
  atan2 := L.atan2
  min a b := match a, b with
    | .nan, b => b
    | a, .nan => a
    | a, b => if ROrd.lt b a then b else a
  epsilon := Flt.epsilon f
  min_value := -Flt.maxValue f
  max_value := Flt.maxValue f
  infinity := Flt.inf false
  pi := L.pi
  frac_pi_2 := L.frac_pi_2
  lit2 := 1 + 1
  lit4 := (1 + 1) + (1 + 1)
  lit1em40 := L.lit1em40
  lit0001 := L.lit0001
  lit1em6 := L.lit1em6

end StaticMath

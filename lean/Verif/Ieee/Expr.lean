import Verif.Ieee.Sum
import Mathlib.Algebra.Order.Ring.Abs

/-!
# Rounding error of arithmetic expressions

The model functions are generic in the element type, so running them on expressions (`Ex`) yields the
expression the code evaluates, in its evaluation order. One theorem about expressions then covers all
functions that only add, subtract, negate and multiply.
-/

namespace StaticMath

/-- Arithmetic expressions over variables `ι`. -/
inductive Ex (ι : Type) where
  | var (i : ι)
  | zero
  | one
  | neg (a : Ex ι)
  | add (a b : Ex ι)
  | sub (a b : Ex ι)
  | mul (a b : Ex ι)

namespace Ex
variable {ι : Type} {f : Fmt}

instance : Zero (Ex ι) := ⟨zero⟩
instance : One (Ex ι) := ⟨one⟩
instance : Neg (Ex ι) := ⟨neg⟩
instance : Add (Ex ι) := ⟨add⟩
instance : Sub (Ex ι) := ⟨sub⟩
instance : Mul (Ex ι) := ⟨mul⟩

/-- The value in floating point arithmetic. -/
noncomputable def evalF (x : ι → Flt f) : Ex ι → Flt f
  | var i => x i
  | zero => 0
  | one => 1
  | neg a => -evalF x a
  | add a b => evalF x a + evalF x b
  | sub a b => evalF x a - evalF x b
  | mul a b => evalF x a * evalF x b

/-- The exact value. -/
noncomputable def evalR (x : ι → ℝ) : Ex ι → ℝ
  | var i => x i
  | zero => 0
  | one => 1
  | neg a => -evalR x a
  | add a b => evalR x a + evalR x b
  | sub a b => evalR x a - evalR x b
  | mul a b => evalR x a * evalR x b

/-- The value with every sign made positive and `η` added to every product. -/
noncomputable def absE (η : ℝ) (x : ι → ℝ) : Ex ι → ℝ
  | var i => |x i|
  | zero => 0
  | one => 1
  | neg a => absE η x a
  | add a b => absE η x a + absE η x b
  | sub a b => absE η x a + absE η x b
  | mul a b => absE η x a * absE η x b + η

/-- Roundings that can accumulate in the result. -/
def depth : Ex ι → ℕ
  | var _ => 0
  | zero => 0
  | one => 0
  | neg a => depth a
  | add a b => if depth a ≤ depth b then depth b + 1 else depth a + 1
  | sub a b => if depth a ≤ depth b then depth b + 1 else depth a + 1
  | mul a b => depth a + depth b + 1

/-- Degree bound of the polynomial. -/
def deg : Ex ι → ℕ
  | var _ => 1
  | zero => 0
  | one => 0
  | neg a => deg a
  | add a b => if deg a ≤ deg b then deg b else deg a
  | sub a b => if deg a ≤ deg b then deg b else deg a
  | mul a b => deg a + deg b

/-- At least 1. -/
def pos (k : ℕ) : ℕ := if k = 0 then 1 else k

/-- Number of monomials when multiplied out (a zero factor counted as 1). -/
def terms : Ex ι → ℕ
  | var _ => 1
  | zero => 0
  | one => 1
  | neg a => terms a
  | add a b => terms a + terms b
  | sub a b => terms a + terms b
  | mul a b => pos (terms a) * pos (terms b)

/-- Like `terms`, with one more for every product, for its underflow. -/
def cnt : Ex ι → ℕ
  | var _ => 1
  | zero => 0
  | one => 1
  | neg a => cnt a
  | add a b => cnt a + cnt b
  | sub a b => cnt a + cnt b
  | mul a b => pos (cnt a) * pos (cnt b) + 1

/-- Sum of coefficient lists. -/
def addL : List ℕ → List ℕ → List ℕ
  | [], m => m
  | l, [] => l
  | a :: l, b :: m => (a + b) :: addL l m

/-- Value of the polynomial with the coefficients `l` at `B`. -/
noncomputable def polyL (B : ℝ) : List ℕ → ℝ
  | [] => 0
  | a :: l => a + B * polyL B l

/-- One of the factors of every product is a variable. -/
def linear : Ex ι → Bool
  | var _ => true
  | zero => true
  | one => true
  | neg a => linear a
  | add a b => linear a && linear b
  | sub a b => linear a && linear b
  | mul (var _) b => linear b
  | mul a (var _) => linear a
  | mul _ _ => false

/-- Coefficients of the underflow term of a `linear` expression. -/
def und : Ex ι → List ℕ
  | var _ => []
  | zero => []
  | one => []
  | neg a => und a
  | add a b => addL (und a) (und b)
  | sub a b => addL (und a) (und b)
  | mul a b => 1 :: addL (und a) (und b)

theorem absE_nonneg {η : ℝ} (hη : 0 ≤ η) (x : ι → ℝ) (e : Ex ι) : 0 ≤ absE η x e := by
  induction e with
  | var i => exact abs_nonneg _
  | zero => exact le_rfl
  | one => exact zero_le_one
  | neg a iha => exact iha
  | add a b iha ihb => exact add_nonneg iha ihb
  | sub a b iha ihb => exact add_nonneg iha ihb
  | mul a b iha ihb => exact add_nonneg (mul_nonneg iha ihb) hη

theorem abs_evalR_le (x : ι → ℝ) (e : Ex ι) : |evalR x e| ≤ absE 0 x e := by
  induction e with
  | var i => exact le_rfl
  | zero => simp [evalR, absE]
  | one => simp [evalR, absE]
  | neg a iha => rw [evalR, abs_neg]; exact iha
  | add a b iha ihb => exact (abs_add_le _ _).trans (add_le_add iha ihb)
  | sub a b iha ihb => exact (abs_sub _ _).trans (add_le_add iha ihb)
  | mul a b iha ihb =>
    rw [evalR, abs_mul, absE, add_zero]
    exact mul_le_mul iha ihb (abs_nonneg _) (absE_nonneg le_rfl _ _)

variable {x : ι → Flt f}

/-- The values of the variables. -/
noncomputable abbrev vals (x : ι → Flt f) : ι → ℝ := fun i => (x i).toReal

/-- Error bound of the computed value, from which everything else follows. -/
def Bd (x : ι → Flt f) (e : Ex ι) : Prop :=
  |(evalF x e).toReal - evalR (vals x) e| ≤
    (1 + f.u) ^ depth e * absE f.eta (vals x) e - absE 0 (vals x) e

theorem Bd.mag {e : Ex ι} (h : Bd x e) : |(evalF x e).toReal| ≤ (1 + f.u) ^ depth e * absE f.eta (vals x) e := by
  have h1 := abs_evalR_le (vals x) e
  have h2 := abs_sub_abs_le_abs_sub (evalF x e).toReal (evalR (vals x) e)
  unfold Bd at h
  linarith

theorem pow_depth (k l : ℕ) (h : k ≤ l) : (1 + f.u) ^ k ≤ (1 + f.u) ^ l :=
  pow_le_pow_right₀ (by have := f.u_pos; linarith) h

theorem scale_mono {k l : ℕ} (h : k ≤ l) {s : ℝ} (hs : 0 ≤ s) : (1 + f.u) ^ k * s ≤ (1 + f.u) ^ l * s :=
  mul_le_mul_of_nonneg_right (pow_depth k l h) hs

theorem depth_add (a b : Ex ι) : depth (add a b) = max (depth a) (depth b) + 1 := by
  rw [depth]; split <;> omega

theorem depth_sub (a b : Ex ι) : depth (sub a b) = max (depth a) (depth b) + 1 := by
  rw [depth]; split <;> omega

/-- The common part of addition and subtraction. -/
theorem bd_sum {a b : Ex ι} (ha : Bd x a) (hb : Bd x b) {s t r : ℝ}
    (hs : |r - t| ≤ f.u * |t|) (h1 : |t| ≤ |(evalF x a).toReal| + |(evalF x b).toReal|)
    (h2 : |t - s| ≤ |(evalF x a).toReal - evalR (vals x) a| + |(evalF x b).toReal - evalR (vals x) b|) :
    |r - s| ≤ (1 + f.u) ^ (max (depth a) (depth b) + 1) *
        (absE f.eta (vals x) a + absE f.eta (vals x) b) - (absE 0 (vals x) a + absE 0 (vals x) b) := by
  have hu := f.u_pos
  have ma := ha.mag
  have mb := hb.mag
  unfold Bd at ha hb
  have na := absE_nonneg f.eta_pos.le (vals x) a
  have nb := absE_nonneg f.eta_pos.le (vals x) b
  have pa := scale_mono (f := f) (le_max_left (depth a) (depth b)) na
  have pb := scale_mono (f := f) (le_max_right (depth a) (depth b)) nb
  have h3 := abs_sub_le r t s
  have h4 : f.u * |t| ≤ f.u * ((1 + f.u) ^ max (depth a) (depth b) *
      (absE f.eta (vals x) a + absE f.eta (vals x) b)) := by
    refine mul_le_mul_of_nonneg_left ?_ hu.le
    rw [mul_add]
    linarith
  rw [pow_succ]
  nlinarith

theorem bd_prod {a b : Ex ι} (ha : Bd x a) (hb : Bd x b) {r : ℝ}
    (hs : |r - (evalF x a).toReal * (evalF x b).toReal| ≤
      f.u * |(evalF x a).toReal * (evalF x b).toReal| + f.eta) :
    |r - evalR (vals x) a * evalR (vals x) b| ≤ (1 + f.u) ^ (depth a + depth b + 1) *
        (absE f.eta (vals x) a * absE f.eta (vals x) b + f.eta) - (absE 0 (vals x) a * absE 0 (vals x) b + 0) := by
  have hu := f.u_pos
  have he := f.eta_pos
  have ma := ha.mag
  have mb := hb.mag
  have ea := abs_evalR_le (vals x) a
  have eb := abs_evalR_le (vals x) b
  unfold Bd at ha hb
  set P := (1 + f.u) ^ depth a * absE f.eta (vals x) a
  set Q := (1 + f.u) ^ depth b * absE f.eta (vals x) b
  set p := absE 0 (vals x) a
  set q := absE 0 (vals x) b
  set F := (evalF x a).toReal
  set G := (evalF x b).toReal
  set X := evalR (vals x) a
  set Y := evalR (vals x) b
  have hp : 0 ≤ p := absE_nonneg le_rfl _ _
  have hP : 0 ≤ P := (abs_nonneg _).trans ma
  have h1 : |F * G| ≤ P * Q := by
    rw [abs_mul]; exact mul_le_mul ma mb (abs_nonneg _) hP
  have h2 : |F * G - X * Y| ≤ P * Q - p * q := by
    have e : F * G - X * Y = (F - X) * G + X * (G - Y) := by ring
    rw [e]
    refine (abs_add_le _ _).trans ?_
    rw [abs_mul, abs_mul]
    have k1 : |F - X| * |G| ≤ (P - p) * Q := mul_le_mul ha mb (abs_nonneg _) ((abs_nonneg _).trans ha)
    have k2 : |X| * |G - Y| ≤ p * (Q - q) := mul_le_mul ea hb (abs_nonneg _) hp
    linarith
  have h3 := abs_sub_le r (F * G) (X * Y)
  have h4 : f.u * |F * G| ≤ f.u * (P * Q) := mul_le_mul_of_nonneg_left h1 hu.le
  have h5 : (1 + f.u) ^ (depth a + depth b + 1) * (absE f.eta (vals x) a * absE f.eta (vals x) b) =
      (1 + f.u) * (P * Q) := by rw [pow_succ, pow_add]; ring
  have h6 : f.eta ≤ (1 + f.u) ^ (depth a + depth b + 1) * f.eta :=
    le_mul_of_one_le_left he.le (one_le_pow₀ (by linarith))
  rw [mul_add, h5]
  linarith

/-- The error of the computed value, whenever it is finite. -/
theorem evalF_err (x : ι → Flt f) (e : Ex ι) (h : (evalF x e).IsFin) : Bd x e := by
  have hu := f.u_pos
  have he := f.eta_pos
  induction e with
  | var i => simp [Bd, evalF, evalR, absE, depth]
  | zero => simp [Bd, evalF, evalR, absE, depth, Flt.toReal_zero]
  | one => simp [Bd, evalF, evalR, absE, depth, Flt.toReal_one]
  | neg a iha =>
    have := iha (Flt.isFin_neg.1 h)
    unfold Bd at *
    rw [evalF, evalR, Flt.toReal_neg, ← neg_add', abs_neg, ← sub_eq_add_neg]
    exact this
  | add a b iha ihb =>
    obtain ⟨h1, h2⟩ := Flt.isFin_of_add h
    have := bd_sum (iha h1) (ihb h2) (r := (evalF x a + evalF x b).toReal)
      (s := evalR (vals x) a + evalR (vals x) b) (Flt.add_rel h) (abs_add_le _ _)
      (by rw [add_sub_add_comm]; exact abs_add_le _ _)
    unfold Bd
    rw [depth_add]
    exact this
  | sub a b iha ihb =>
    obtain ⟨h1, h2⟩ := Flt.isFin_of_sub h
    have := bd_sum (iha h1) (ihb h2) (r := (evalF x a - evalF x b).toReal)
      (s := evalR (vals x) a - evalR (vals x) b) (Flt.sub_rel h) (abs_sub _ _)
      (by rw [sub_sub_sub_comm]; exact abs_sub _ _)
    unfold Bd
    rw [depth_sub]
    exact this
  | mul a b iha ihb =>
    obtain ⟨h1, h2⟩ := Flt.isFin_of_mul h
    exact bd_prod (iha h1) (ihb h2) (Flt.mul_err h)

end Ex
end StaticMath

import Verif.Lemmas.IeeeExpr

/-!
# Expressions of inexact inputs

The inputs `x` are within `ε` of exact values `y` of magnitude at most 1.
-/

namespace StaticMath
namespace Ex
variable {ι : Type} {f : Fmt}

/-- Number of monomials when multiplied out. -/
def mass : Ex ι → ℕ
  | var _ => 1
  | zero => 0
  | one => 1
  | neg a => mass a
  | add a b => mass a + mass b
  | sub a b => mass a + mass b
  | mul a b => mass a * mass b

/-- The value with all signs positive and all variables `2`. -/
def two : Ex ι → ℕ
  | var _ => 2
  | zero => 0
  | one => 1
  | neg a => two a
  | add a b => two a + two b
  | sub a b => two a + two b
  | mul a b => two a * two b

/-- Coefficient of the underflow term for variables of magnitude at most 2. -/
def ufl : Ex ι → ℕ
  | var _ => 0
  | zero => 0
  | one => 0
  | neg a => ufl a
  | add a b => ufl a + ufl b
  | sub a b => ufl a + ufl b
  | mul a b => ufl a * two b + two a * ufl b + ufl a * ufl b + 1

theorem absE_mass {B : ℝ} (hB : 1 ≤ B) (x : ι → ℝ) (hx : ∀ i, |x i| ≤ B) (e : Ex ι) :
    absE 0 x e ≤ mass e * B ^ deg e := by
  induction e with
  | var i => simpa [absE, mass, deg] using hx i
  | zero => simp [absE, mass, deg]
  | one => simp [absE, mass, deg]
  | neg a iha => exact iha
  | add a b iha ihb =>
    rw [deg_add]
    simp only [absE, mass]
    push_cast
    have h1 := crude hB (le_max_left (deg a) (deg b)) (Nat.cast_nonneg (α := ℝ) (mass a))
    have h2 := crude hB (le_max_right (deg a) (deg b)) (Nat.cast_nonneg (α := ℝ) (mass b))
    linarith
  | sub a b iha ihb =>
    rw [deg_sub]
    simp only [absE, mass]
    push_cast
    have h1 := crude hB (le_max_left (deg a) (deg b)) (Nat.cast_nonneg (α := ℝ) (mass a))
    have h2 := crude hB (le_max_right (deg a) (deg b)) (Nat.cast_nonneg (α := ℝ) (mass b))
    linarith
  | mul a b iha ihb =>
    simp only [absE, mass, deg, pow_add, add_zero]
    push_cast
    calc _ ≤ (mass a * B ^ deg a) * (mass b * B ^ deg b) :=
          mul_le_mul iha ihb (absE_nonneg le_rfl _ _) (by positivity)
      _ = _ := by ring

theorem absE_two (x : ι → ℝ) (hx : ∀ i, |x i| ≤ 2) (e : Ex ι) : absE 0 x e ≤ two e := by
  induction e with
  | var i => simpa [absE, two] using hx i
  | zero => simp [absE, two]
  | one => simp [absE, two]
  | neg a iha => exact iha
  | add a b iha ihb => simp only [absE, two]; push_cast; linarith
  | sub a b iha ihb => simp only [absE, two]; push_cast; linarith
  | mul a b iha ihb =>
    simp only [absE, two, add_zero]
    push_cast
    exact mul_le_mul iha ihb (absE_nonneg le_rfl _ _) (Nat.cast_nonneg _)

theorem absE_ufl {η : ℝ} (hη : 0 ≤ η) (hη1 : η ≤ 1) (x : ι → ℝ) (hx : ∀ i, |x i| ≤ 2) (e : Ex ι) :
    absE η x e ≤ absE 0 x e + η * ufl e := by
  induction e with
  | var i => simp [absE, ufl]
  | zero => simp [absE, ufl]
  | one => simp [absE, ufl]
  | neg a iha => exact iha
  | add a b iha ihb => simp only [absE, ufl]; push_cast; linarith
  | sub a b iha ihb => simp only [absE, ufl]; push_cast; linarith
  | mul a b iha ihb =>
    simp only [absE, ufl, add_zero]
    push_cast
    have ha := absE_two x hx a
    have hb := absE_two x hx b
    have ha0 := absE_nonneg le_rfl x a
    have hb0 := absE_nonneg le_rfl x b
    have ua : (0 : ℝ) ≤ ufl a := Nat.cast_nonneg _
    have ub : (0 : ℝ) ≤ ufl b := Nat.cast_nonneg _
    have h1 := mul_le_mul iha ihb (absE_nonneg hη _ _) (by positivity)
    have h2 : η * ufl a * absE 0 x b ≤ η * (ufl a * two b) := by
      rw [mul_assoc]; exact mul_le_mul_of_nonneg_left (mul_le_mul_of_nonneg_left hb ua) hη
    have h3 : absE 0 x a * (η * ufl b) ≤ η * (two a * ufl b) := by
      rw [mul_left_comm]; exact mul_le_mul_of_nonneg_left (mul_le_mul_of_nonneg_right ha ub) hη
    have h4 : η * ufl a * (η * ufl b) ≤ η * (ufl a * ufl b) := by
      have : η * (η * (ufl a * ufl b)) ≤ 1 * (η * (ufl a * ufl b)) :=
        mul_le_mul_of_nonneg_right hη1 (by positivity)
      nlinarith
    nlinarith

theorem evalR_pert {ε : ℝ} (hε : 0 ≤ ε) (x y : ι → ℝ) (hy : ∀ i, |y i| ≤ 1) (hxy : ∀ i, |x i - y i| ≤ ε) (e : Ex ι) :
    |evalR x e - evalR y e| ≤ mass e * ((1 + ε) ^ deg e - 1) := by
  have hx : ∀ i, |x i| ≤ 1 + ε := fun i => by
    have := abs_add_le (x i - y i) (y i)
    rw [sub_add_cancel] at this
    linarith [hy i, hxy i]
  have h1 : (1 : ℝ) ≤ 1 + ε := by linarith
  have mono {a b c : ℕ} (h : a ≤ b) : (c : ℝ) * ((1 + ε) ^ a - 1) ≤ c * ((1 + ε) ^ b - 1) :=
    mul_le_mul_of_nonneg_left (sub_le_sub_right (pow_le_pow_right₀ h1 h) 1) (Nat.cast_nonneg _)
  induction e with
  | var i => simpa [evalR, mass, deg] using hxy i
  | zero => simp [evalR, mass, deg]
  | one => simp [evalR, mass, deg]
  | neg a iha =>
    simp only [evalR, mass, deg]
    rw [← neg_add', ← sub_eq_add_neg, abs_neg]
    exact iha
  | add a b iha ihb =>
    rw [deg_add]
    simp only [evalR, mass]
    push_cast
    have h2 := mono (c := mass a) (le_max_left (deg a) (deg b))
    have h3 := mono (c := mass b) (le_max_right (deg a) (deg b))
    have h4 : evalR x a + evalR x b - (evalR y a + evalR y b) = (evalR x a - evalR y a) + (evalR x b - evalR y b) := by ring
    rw [h4]
    have := abs_add_le (evalR x a - evalR y a) (evalR x b - evalR y b)
    linarith
  | sub a b iha ihb =>
    rw [deg_sub]
    simp only [evalR, mass]
    push_cast
    have h2 := mono (c := mass a) (le_max_left (deg a) (deg b))
    have h3 := mono (c := mass b) (le_max_right (deg a) (deg b))
    have h4 : evalR x a - evalR x b - (evalR y a - evalR y b) = (evalR x a - evalR y a) - (evalR x b - evalR y b) := by ring
    rw [h4]
    have := abs_sub (evalR x a - evalR y a) (evalR x b - evalR y b)
    linarith
  | mul a b iha ihb =>
    simp only [evalR, mass, deg, pow_add]
    push_cast
    have hb := (abs_evalR_le x b).trans (absE_mass h1 x hx b)
    have ha := (abs_evalR_le y a).trans (absE_mass le_rfl y hy a)
    rw [one_pow, mul_one] at ha
    have h4 : evalR x a * evalR x b - evalR y a * evalR y b =
        (evalR x a - evalR y a) * evalR x b + evalR y a * (evalR x b - evalR y b) := by ring
    rw [h4]
    refine (abs_add_le _ _).trans ?_
    rw [abs_mul, abs_mul]
    have pa : (1 : ℝ) ≤ (1 + ε) ^ deg a := one_le_pow₀ h1
    have pb : (1 : ℝ) ≤ (1 + ε) ^ deg b := one_le_pow₀ h1
    have m1 := mul_le_mul iha hb (abs_nonneg _) (mul_nonneg (Nat.cast_nonneg _) (by linarith))
    have m2 := mul_le_mul ha ihb (abs_nonneg _) (Nat.cast_nonneg _)
    refine (add_le_add m1 m2).trans (le_of_eq ?_)
    ring

/-- Error of a computed expression whose inputs are within `ε ≤ 1` of exact inputs of magnitude at most 1. -/
theorem err_pert {ε : ℝ} {m k d U : ℕ} (hε : 0 ≤ ε) (hε1 : ε ≤ 1) (x : ι → Flt f) (y : ι → ℝ) (hy : ∀ i, |y i| ≤ 1)
    (hxy : ∀ i, |(x i).toReal - y i| ≤ ε) (e : Ex ι) (hm : mass e ≤ m) (hk : depth e ≤ k) (hd : deg e ≤ d)
    (hU : ufl e ≤ U) (h : (evalF x e).IsFin) :
    |(evalF x e).toReal - evalR y e| ≤ m * ((1 + f.u) ^ k * (1 + ε) ^ d - 1) + (1 + f.u) ^ k * (f.eta * U) := by
  have hu := f.u_pos
  have hη := f.eta_pos
  have h1 : (1 : ℝ) ≤ 1 + ε := by linarith
  have hu1 : (1 : ℝ) ≤ 1 + f.u := by linarith
  have hx : ∀ i, |vals x i| ≤ 1 + ε := fun i => by
    have := abs_add_le ((x i).toReal - y i) (y i)
    rw [sub_add_cancel] at this
    show |(x i).toReal| ≤ _
    linarith [hy i, hxy i]
  have hx2 : ∀ i, |vals x i| ≤ 2 := fun i => (hx i).trans (by linarith)
  have e1 := err_of_le (x := x) (S := mass e * (1 + ε) ^ deg e) (U := ufl e) e rfl (absE_mass h1 _ hx e)
    (absE_ufl hη.le f.eta_le_one _ hx2 e) h
  have e2 := evalR_pert hε (vals x) y hy hxy e
  have e3 : |(evalF x e).toReal - evalR y e| ≤ |(evalF x e).toReal - evalR (vals x) e| + |evalR (vals x) e - evalR y e| := by
    have := abs_add_le ((evalF x e).toReal - evalR (vals x) e) (evalR (vals x) e - evalR y e)
    rwa [sub_add_sub_cancel] at this
  have pu : (1 : ℝ) ≤ (1 + f.u) ^ k := one_le_pow₀ hu1
  have pu' : (1 + f.u) ^ depth e ≤ (1 + f.u) ^ k := pow_le_pow_right₀ hu1 hk
  have pd : (1 + ε) ^ deg e ≤ (1 + ε) ^ d := pow_le_pow_right₀ h1 hd
  have pe : (1 : ℝ) ≤ (1 + ε) ^ deg e := one_le_pow₀ h1
  have pk : (1 : ℝ) ≤ (1 + f.u) ^ depth e := one_le_pow₀ hu1
  have q1 : (mass e : ℝ) * ((1 + f.u) ^ depth e * (1 + ε) ^ deg e - 1) ≤ m * ((1 + f.u) ^ k * (1 + ε) ^ d - 1) := by
    have : (1 + f.u) ^ depth e * (1 + ε) ^ deg e ≤ (1 + f.u) ^ k * (1 + ε) ^ d :=
      mul_le_mul pu' pd (by linarith) (by linarith)
    have one : (1 : ℝ) ≤ (1 + f.u) ^ depth e * (1 + ε) ^ deg e := one_le_mul_of_one_le_of_one_le pk pe
    exact mul_le_mul (by exact_mod_cast hm) (by linarith) (by linarith) (Nat.cast_nonneg _)
  have q2 : (1 + f.u) ^ depth e * (f.eta * ufl e) ≤ (1 + f.u) ^ k * (f.eta * U) :=
    mul_le_mul pu' (mul_le_mul_of_nonneg_left (by exact_mod_cast hU) hη.le) (by positivity) (by positivity)
  have q3 : ((1 + f.u) ^ depth e - 1) * (mass e * (1 + ε) ^ deg e) + mass e * ((1 + ε) ^ deg e - 1) =
      mass e * ((1 + f.u) ^ depth e * (1 + ε) ^ deg e - 1) := by ring
  linarith

end Ex
end StaticMath

import Verif.Checked.Int
import Verif.Spec.Quat
import Verif.Model.DualQuaternion
import Mathlib.Algebra.Order.Ring.Abs
import Mathlib.Tactic.Linarith
import Mathlib.Tactic.Ring

/-!
# Overflow-checked integers next to the exact ones

A `Tr t` is a value of the checked type, the exact integer it stands for and a bound for the absolute
value of that integer and of all integers it was computed from. The model functions are generic, so
they can be run on such triples.
-/

namespace StaticMath

/-- Integers of at most this absolute value fit, and so do their negatives. -/
def IntTy.lim (t : IntTy) : ℤ := min t.hi (-t.lo)

namespace CInt
variable {t : IntTy}

/-- Negation panics when the negative does not fit. -/
instance : Neg (CInt t) := ⟨fun a => match a with | ⟨some x⟩ => chk t (-x) | ⟨none⟩ => ⟨none⟩⟩
/-- So does the absolute value. -/
instance : RAbs (CInt t) := ⟨fun a => match a with | ⟨some x⟩ => chk t |x| | ⟨none⟩ => ⟨none⟩⟩

/-- Division rounds towards zero; it panics when the divisor is zero and when the quotient does not fit
(the smallest value divided by -1). -/
instance : Div (CInt t) := ⟨fun a b => match a, b with
  | ⟨some x⟩, ⟨some y⟩ => if y = 0 then ⟨none⟩ else chk t (x.tdiv y)
  | _, _ => ⟨none⟩⟩

theorem of_inj {x y : ℤ} (h : of t x = of t y) : x = y := Option.some.inj (congrArg val h)

theorem sub_some {a b : CInt t} {z : ℤ} (h : a - b = of t z) :
    ∃ x y, a = of t x ∧ b = of t y ∧ z = x - y := by
  obtain ⟨_ | x⟩ := a
  · cases congrArg val h
  · obtain ⟨_ | y⟩ := b
    · cases congrArg val h
    · exact ⟨x, y, rfl, rfl, (chk_some h).1.symm⟩

theorem mul_some' {a b : CInt t} {z : ℤ} (h : a * b = of t z) :
    ∃ x y, a = of t x ∧ b = of t y ∧ z = x * y := by
  obtain ⟨_ | x⟩ := a
  · cases congrArg val h
  · obtain ⟨_ | y⟩ := b
    · cases congrArg val h
    · exact ⟨x, y, rfl, rfl, (chk_some h).1.symm⟩

theorem neg_some {a : CInt t} {z : ℤ} (h : -a = of t z) : ∃ x, a = of t x ∧ z = -x := by
  obtain ⟨_ | x⟩ := a
  · cases congrArg val h
  · exact ⟨x, rfl, (chk_some h).1.symm⟩

theorem abs_some {a : CInt t} {z : ℤ} (h : RAbs.abs a = of t z) : ∃ x, a = of t x ∧ z = |x| := by
  obtain ⟨_ | x⟩ := a
  · cases congrArg val h
  · exact ⟨x, rfl, (chk_some h).1.symm⟩

theorem chk_lim {z b : ℤ} (h : |z| ≤ b) (hb : b ≤ t.lim) : chk t z = of t z := by
  have h1 := (le_min_iff.1 hb).1
  have h2 := (le_min_iff.1 hb).2
  obtain ⟨h3, h4⟩ := abs_le.1 h
  exact chk_ok (by linarith) (by linarith)

end CInt

open CInt

/-- A checked value, the exact one and a bound. -/
structure Tr (t : IntTy) where
  a : CInt t
  z : ℤ
  b : ℤ
  abs_le : |z| ≤ b
  exact : ∀ w, a = of t w → w = z
  fits : b ≤ t.lim → a = of t z

namespace Tr
variable {t : IntTy}

theorem b_nonneg (x : Tr t) : 0 ≤ x.b := (abs_nonneg _).trans x.abs_le

instance : Add (Tr t) := ⟨fun x y => ⟨x.a + y.a, x.z + y.z, x.b + y.b,
  (abs_add_le _ _).trans (add_le_add x.abs_le y.abs_le),
  fun w h => by
    obtain ⟨u, v, h1, h2, h3⟩ := add_some h
    rw [h3, x.exact u h1, y.exact v h2],
  fun h => by
    have hx := x.b_nonneg
    have hy := y.b_nonneg
    rw [x.fits (by linarith), y.fits (by linarith)]
    exact chk_lim ((abs_add_le _ _).trans (add_le_add x.abs_le y.abs_le)) h⟩⟩

instance : Sub (Tr t) := ⟨fun x y => ⟨x.a - y.a, x.z - y.z, x.b + y.b,
  (abs_sub _ _).trans (add_le_add x.abs_le y.abs_le),
  fun w h => by
    obtain ⟨u, v, h1, h2, h3⟩ := sub_some h
    rw [h3, x.exact u h1, y.exact v h2],
  fun h => by
    have hx := x.b_nonneg
    have hy := y.b_nonneg
    rw [x.fits (by linarith), y.fits (by linarith)]
    exact chk_lim ((abs_sub _ _).trans (add_le_add x.abs_le y.abs_le)) h⟩⟩

theorem mul_bound (x y : Tr t) : |x.z * y.z| ≤ max x.b 1 * max y.b 1 := by
  rw [abs_mul]
  exact mul_le_mul (x.abs_le.trans (le_max_left _ _)) (y.abs_le.trans (le_max_left _ _))
    (abs_nonneg _) (zero_le_one.trans (le_max_right _ _))

instance : Mul (Tr t) := ⟨fun x y => ⟨x.a * y.a, x.z * y.z, max x.b 1 * max y.b 1, mul_bound x y,
  fun w h => by
    obtain ⟨u, v, h1, h2, h3⟩ := mul_some' h
    rw [h3, x.exact u h1, y.exact v h2],
  fun h => by
    have hx : x.b ≤ max x.b 1 * max y.b 1 :=
      (le_max_left x.b 1).trans (le_mul_of_one_le_right (zero_le_one.trans (le_max_right _ _)) (le_max_right _ _))
    have hy : y.b ≤ max x.b 1 * max y.b 1 :=
      (le_max_left y.b 1).trans (le_mul_of_one_le_left (zero_le_one.trans (le_max_right _ _)) (le_max_right _ _))
    rw [x.fits (hx.trans h), y.fits (hy.trans h)]
    exact chk_lim (mul_bound x y) h⟩⟩

instance : Neg (Tr t) := ⟨fun x => ⟨-x.a, -x.z, x.b, (abs_neg _).trans_le x.abs_le,
  fun w h => by
    obtain ⟨u, h1, h3⟩ := neg_some h
    rw [h3, x.exact u h1],
  fun h => by
    rw [x.fits h]
    exact chk_lim ((abs_neg _).trans_le x.abs_le) h⟩⟩

instance : RAbs (Tr t) := ⟨fun x => ⟨RAbs.abs x.a, |x.z|, x.b, (abs_abs _).trans_le x.abs_le,
  fun w h => by
    obtain ⟨u, h1, h3⟩ := abs_some h
    rw [h3, x.exact u h1],
  fun h => by
    rw [x.fits h]
    exact chk_lim ((abs_abs _).trans_le x.abs_le) h⟩⟩

instance : Zero (Tr t) := ⟨⟨0, 0, 0, abs_zero.le, fun _ h => of_inj h.symm, fun _ => rfl⟩⟩
instance : One (Tr t) := ⟨⟨1, 1, 1, abs_one.le, fun _ h => of_inj h.symm, fun _ => rfl⟩⟩

/-- An input: a value of the type, with a bound for its absolute value. -/
def mk' (t : IntTy) (z b : ℤ) (h : |z| ≤ b) : Tr t := ⟨of t z, z, b, h, fun _ h => (of_inj h).symm, fun _ => rfl⟩

theorem add_b (x y : Tr t) : (x + y).b = x.b + y.b := rfl
theorem sub_b (x y : Tr t) : (x - y).b = x.b + y.b := rfl
theorem mul_b (x y : Tr t) : (x * y).b = max x.b 1 * max y.b 1 := rfl
theorem neg_b (x : Tr t) : (-x).b = x.b := rfl
theorem zero_b : (0 : Tr t).b = 0 := rfl
theorem one_b : (1 : Tr t).b = 1 := rfl
theorem mk'_b (z b : ℤ) (h : |z| ≤ b) : (mk' t z b h).b = b := rfl

end Tr

/-! ## Integer quaternions and vectors as values of the checked type -/

/-- A vector of integers as a vector of the checked type. -/
def Vec.on {n : ℕ} (t : IntTy) (v : Vec n ℤ) : Vec n (CInt t) := ⟨fun i => of t (v i)⟩
/-- A matrix of integers as a matrix of the checked type. -/
def Mat.on {n : ℕ} (t : IntTy) (A : Mat n ℤ) : Mat n (CInt t) := ⟨fun i j => of t (A i j)⟩
/-- An integer quaternion as a quaternion of the checked type. -/
def Quat.on (t : IntTy) (q : Quat ℤ) : Quat (CInt t) := ⟨of t q.q0, q.q.on t, q.normalized⟩
/-- An integer dual quaternion as a dual quaternion of the checked type. -/
def DQuat.on (t : IntTy) (x : DQuat ℤ) : DQuat (CInt t) := ⟨x.q_real.on t, x.q_dual.on t, x.normalized⟩

end StaticMath

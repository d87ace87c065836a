import Verif.Checked.Int
import Verif.Spec.Quat
import Mathlib.Algebra.Ring.InjSurj
import Mathlib.Data.Int.ModEq
import Mathlib.Algebra.BigOperators.RingEquiv
import Mathlib.Tactic.Ring

/-!
# Wrapping integers as an element type

In a build without overflow checks (a release build), `+`, `-`, `*` and unary `-` on integers return the exact result
reduced into the range of the type. A value of `WInt t` is an integer in the range of `t`.
-/

namespace StaticMath

/-- An integer of the type `t`. -/
@[ext] structure WInt (t : IntTy) where
  val : ℤ
  lo_le : t.lo ≤ val
  le_hi : val ≤ t.hi

/-- How many values the type has. -/
def IntTy.size (t : IntTy) : ℤ := t.hi - t.lo + 1

theorem IntTy.size_pos (t : IntTy) : 0 < t.size := by
  have := t.lo_le
  have := t.hi_ge
  unfold size
  omega

namespace WInt
variable {t : IntTy}

/-- The only value of the type that is congruent to `z` modulo the number of values. -/
def wrap (t : IntTy) (z : ℤ) : WInt t where
  val := t.lo + (z - t.lo) % t.size
  lo_le := by
    have := Int.emod_nonneg (z - t.lo) t.size_pos.ne'
    omega
  le_hi := by
    have := Int.emod_lt_of_pos (z - t.lo) t.size_pos
    unfold IntTy.size at *
    omega

instance : Add (WInt t) := ⟨fun a b => wrap t (a.val + b.val)⟩
instance : Sub (WInt t) := ⟨fun a b => wrap t (a.val - b.val)⟩
instance : Mul (WInt t) := ⟨fun a b => wrap t (a.val * b.val)⟩
instance : Neg (WInt t) := ⟨fun a => wrap t (-a.val)⟩
instance : Zero (WInt t) := ⟨⟨0, t.lo_le, by have := t.hi_ge; omega⟩⟩
instance : One (WInt t) := ⟨⟨1, by have := t.lo_le; omega, t.hi_ge⟩⟩

theorem wrap_eq_iff {a b : ℤ} : wrap t a = wrap t b ↔ a ≡ b [ZMOD t.size] := by
  rw [WInt.ext_iff]
  change t.lo + (a - t.lo) % t.size = t.lo + (b - t.lo) % t.size ↔ a % t.size = b % t.size
  rw [add_right_inj]
  refine ⟨fun h => ?_, fun h => ?_⟩
  · have := Int.ModEq.add_right t.lo (h : a - t.lo ≡ b - t.lo [ZMOD t.size])
    rwa [sub_add_cancel, sub_add_cancel] at this
  · exact Int.ModEq.sub_right t.lo (h : a ≡ b [ZMOD t.size])

theorem wrap_of_range {z : ℤ} (h1 : t.lo ≤ z) (h2 : z ≤ t.hi) : (wrap t z).val = z := by
  change t.lo + (z - t.lo) % t.size = z
  rw [Int.emod_eq_of_lt (by omega) (by unfold IntTy.size; omega)]
  omega

theorem wrap_val (a : WInt t) : wrap t a.val = a := WInt.ext (wrap_of_range a.lo_le a.le_hi)

theorem val_modEq (z : ℤ) : (wrap t z).val ≡ z [ZMOD t.size] := wrap_eq_iff.1 (wrap_val _)

theorem wrap_zero : wrap t 0 = 0 := wrap_val (0 : WInt t)
theorem wrap_one : wrap t 1 = 1 := wrap_val (1 : WInt t)
theorem wrap_add (a b : ℤ) : wrap t (a + b) = wrap t a + wrap t b := wrap_eq_iff.2 ((val_modEq a).add (val_modEq b)).symm
theorem wrap_sub (a b : ℤ) : wrap t (a - b) = wrap t a - wrap t b := wrap_eq_iff.2 ((val_modEq a).sub (val_modEq b)).symm
theorem wrap_mul (a b : ℤ) : wrap t (a * b) = wrap t a * wrap t b := wrap_eq_iff.2 ((val_modEq a).mul (val_modEq b)).symm
theorem wrap_neg (a : ℤ) : wrap t (-a) = -wrap t a := wrap_eq_iff.2 ((val_modEq a).neg).symm

instance : SMul ℕ (WInt t) := ⟨fun n a => wrap t (n * a.val)⟩
instance : SMul ℤ (WInt t) := ⟨fun n a => wrap t (n * a.val)⟩
instance : Pow (WInt t) ℕ := ⟨fun a n => wrap t (a.val ^ n)⟩
instance : NatCast (WInt t) := ⟨fun n => wrap t n⟩
instance : IntCast (WInt t) := ⟨fun n => wrap t n⟩

/-- Wrapping integers form a commutative ring. -/
instance commRing : CommRing (WInt t) :=
  Function.Surjective.commRing (wrap t) (fun a => ⟨a.val, wrap_val a⟩) wrap_zero wrap_one wrap_add wrap_mul wrap_neg wrap_sub
    (fun n a => by
      rw [nsmul_eq_mul]
      exact wrap_eq_iff.2 ((Int.ModEq.refl _).mul (val_modEq a)).symm)
    (fun n a => by
      rw [zsmul_eq_mul, Int.cast_id]
      exact wrap_eq_iff.2 ((Int.ModEq.refl _).mul (val_modEq a)).symm)
    (fun a n => wrap_eq_iff.2 ((val_modEq a).pow n).symm) (fun _ => rfl) fun _ => rfl

/-- Reduction as a homomorphism. -/
def wrapHom (t : IntTy) : ℤ →+* WInt t where
  toFun := wrap t
  map_zero' := wrap_zero
  map_one' := wrap_one
  map_add' := wrap_add
  map_mul' := wrap_mul

theorem sum_wrap {n : ℕ} (x y : Fin n → WInt t) : ∑ k, x k * y k = wrap t (∑ k, (x k).val * (y k).val) := by
  rw [show wrap t (∑ k, (x k).val * (y k).val) = wrapHom t (∑ k, (x k).val * (y k).val) from rfl, map_sum]
  refine Finset.sum_congr rfl fun k _ => ?_
  exact (congrArg₂ (· * ·) (wrap_val (x k)) (wrap_val (y k))).symm.trans (wrap_mul _ _).symm

end WInt
end StaticMath
